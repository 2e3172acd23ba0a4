import Verif.Model.Message
import Verif.Model.Rest
import Verif.Model.Setting
import Verif.Model.Protobuf
/-!
# `read_from` as it changes an object

Elsewhere in the model a `read_from` returns a new value.  Here it is what it is in the code: a sequence of assignments to the
attributes of an object that may have been used before, interrupted where a read raises.
-/

namespace Verif
open Py StreamInput

/-- The values that `read_from` methods assign to attributes (transport/tcp_header.py:54-62 and the others below). -/
inductive Attr where
  | none
  | str (s : String) | int (i : Int) | bool (b : Bool) | bytes (b : Bytes) | f64 (x : F64)
  | version (v : Version) | strs (l : List String) | dict (d : Dict String String) | listDict (d : Dict String (List String))
  | method (m : RestMethod) | http (v : HttpVersion) | status (s : RestStatus) | unit (u : ByteSizeUnit)
  | time (t : TimeValue) | size (s : ByteSizeValue)
  | task (t : TaskId) | ip (n : Nat) | address (a : TransportAddress) | roles (l : List Role) | deps (l : List ExtensionDependency)
  | node (n : DiscoveryNode) | extNode (n : DiscoveryExtensionNode)
  | actions (r : RegisterRestActions) | request (r : ExtensionRequest)
  /-- A protobuf message whose parsing failed; what is in it then is not modelled (transport/register_rest_actions_request.py:34-35). -/
  | unparsed

/-- An object: its `__dict__`.  An attribute that was never set is not in it (transport/discovery_node.py:36). -/
abbrev PyObject := Dict String Attr

/-- A method that reads a stream and changes its object: also an exception leaves an object behind
(transport/tcp_header.py:54-62 and the others below). -/
def Into (α : Type) := PyObject → Bytes → PyObject × Except Err (α × Bytes)

namespace Into
/-- Sequencing: an exception ends the method, with the object as it is then (transport/tcp_header.py:54-62). -/
protected def bind {α β : Type} (m : Into α) (f : α → Into β) : Into β := fun d bs =>
  match m d bs with
  | (d, .error e) => (d, .error e)
  | (d, .ok (a, rest)) => f a d rest

/-- transport/tcp_header.py:54-62. -/
instance : Monad Into where
  pure a := fun d bs => (d, .ok (a, bs))
  bind := Into.bind

/-- Reading from the stream leaves the object alone (transport/tcp_header.py:55). -/
def read {α : Type} (r : Reader α) : Into α := fun d bs =>
  match r bs with
  | .error e => (d, .error e)
  | .ok (a, rest) => (d, .ok (a, rest))

/-- `self.name = value` (transport/tcp_header.py:55). -/
def assign (name : String) (v : Attr) : Into Unit := fun d bs => (d.set name v, .ok ((), bs))

/-- `self.roles.add(role)` on the set that `read_from` has just made (transport/discovery_node.py:59). -/
def addRole (r : Role) : Into Unit := fun d bs =>
  match d.get? "roles" with
  | some (.roles l) => (d.set "roles" (.roles (if r ∈ l then l else l ++ [r])), .ok ((), bs))
  | _ => (d, .error .attribute)

/-- `self.dependencies.append(dependency)` on the list that `read_from` has just made
(transport/discovery_extension_node.py:45). -/
def addDependency (x : ExtensionDependency) : Into Unit := fun d bs =>
  match d.get? "dependencies" with
  | some (.deps l) => (d.set "dependencies" (.deps (l ++ [x])), .ok ((), bs))
  | _ => (d, .error .attribute)

/-- `for _ in range(n): ...` (transport/discovery_node.py:58-59, transport/discovery_extension_node.py:44-45). -/
def repeated (m : Into Unit) : Nat → Into Unit
  | 0 => pure ()
  | n + 1 => do m; repeated m n

/-- transport/tcp_header.py:54-62.  A new `Version` is made and then filled. -/
def tcpHeader : Into Unit := do
  assign "prefix" (.bytes (← read (readBytes 2)))
  assign "size" (.int (← read readInt))
  assign "request_id" (.int (← read readLong))
  assign "status" (.int (← read readByte))
  assign "version" (.version (Version.fromBytes (← read (readBytes 4))))
  assign "variable_header_size" (.int (← read readInt))

/-- transport/thread_context_struct.py:21-24. -/
def threadContext : Into Unit := do
  assign "request_headers" (.dict (← read readStringDict))
  assign "response_headers" (.listDict (← read readStringSetDict))

/-- transport/task_id.py:23-29. -/
def taskId : Into Unit := do
  let node_id ← read readString
  assign "node_id" (.str node_id)
  if node_id ≠ "" then assign "id" (.int (← read readLong)) else assign "id" .none

/-- `TransportRequest.read_from`, transport/transport_request.py:21-24. -/
def transportRequest : Into Unit := do
  assign "parent_task_id" (.task (← read TaskId.readFrom))

/-- transport/transport_address.py:23-30. -/
def transportAddress : Into Unit := do
  let addr_bytes ← read readByte
  if addr_bytes ≠ 4 then read (Reader.throw .exception)
  else do
    let i ← read readInt
    assign "address" (.ip (← read (ipv4 i)))
    assign "host_name" (.str (← read readString))
    assign "port" (.int (← read readInt))

/-- transport/discovery_node.py:48-61. -/
def discoveryNode : Into Unit := do
  assign "node_name" (.str (← read readString))
  assign "node_id" (.str (← read readString))
  assign "ephemeral_id" (.str (← read readString))
  assign "host_name" (.str (← read readString))
  assign "host_address" (.str (← read readString))
  assign "address" (.address (← read TransportAddress.readFrom))
  assign "attributes" (.dict (← read readStringDict))
  assign "roles" (.roles [])
  let roles_size ← read readVInt
  repeated (do addRole (← read DiscoveryNode.readRole)) roles_size.toNat
  assign "version" (.version (← read readVersion))

/-- transport/extension_dependency.py:22-25. -/
def extensionDependency : Into Unit := do
  assign "unique_id" (.str (← read readString))
  assign "version" (.version (← read readVersion))

/-- transport/discovery_extension_node.py:39-46. -/
def discoveryExtensionNode : Into Unit := do
  discoveryNode
  assign "minimum_compatible_version" (.version (← read readVersion))
  assign "dependencies" (.deps [])
  let num_dependencies ← read readVInt
  repeated (do addDependency (← read ExtensionDependency.readFrom)) num_dependencies.toNat

/-- transport/initialize_extension_request.py:29-33. -/
def initializeExtensionRequest : Into Unit := do
  transportRequest
  assign "source_node" (.node (← read DiscoveryNode.readFrom))
  assign "extension" (.extNode (← read DiscoveryExtensionNode.readFrom))

/-- transport/initialize_extension_response.py:23-27. -/
def initializeExtensionResponse : Into Unit := do
  assign "name" (.str (← read readString))
  assign "implemented_interfaces" (.strs (← read readStringArray))

/-- transport/acknowledged_response.py:22-25. -/
def acknowledgedResponse : Into Unit := do
  assign "status" (.bool (← read readBoolean))

/-- transport/transport_handshaker_handshake_request.py:23-27. -/
def handshakerRequest : Into Unit := do
  transportRequest
  let _ ← read readVInt
  assign "version" (.version (← read readVersion))

/-- transport/transport_handshaker_handshake_response.py:25-28. -/
def handshakerResponse : Into Unit := do
  assign "version" (.version (← read readVersion))

/-- transport/transport_service_handshake_response.py:34-43. -/
def serviceHandshakeResponse : Into Unit := do
  let present ← read readBoolean
  if present then assign "discovery_node" (.node (← read DiscoveryNode.readFrom)) else assign "discovery_node" .none
  assign "cluster_name" (.str (← read readString))
  assign "version" (.version (← read readVersion))

/-- transport/register_rest_actions_request.py:31-36: the new message is assigned before it is parsed. -/
def registerRestActionsRequest : Into Unit := do
  transportRequest
  let n ← read readVInt
  let bs ← read (readBytes n)
  assign "rra" .unparsed
  assign "rra" (.actions (← read (orDecodeError (RegisterRestActions.parse bs))))

/-- transport/extension_transport_request.py:31-36: the new message is assigned before it is parsed. -/
def extensionTransportRequest : Into Unit := do
  transportRequest
  let n ← read readVInt
  let bs ← read (readBytes n)
  assign "er" .unparsed
  assign "er" (.request (← read (orDecodeError (ExtensionRequest.parse bs))))

/-- rest/extension_rest_request.py:48-60: a media type is assigned only if there is one. -/
def extensionRestRequest : Into Unit := do
  transportRequest
  assign "method" (.method (← read (readEnum RestMethod)))
  assign "uri" (.str (← read readString))
  assign "path" (.str (← read readString))
  assign "params" (.dict (← read readStringDict))
  assign "headers" (.listDict (← read readStringArrayDict))
  let present ← read readBoolean
  if present then assign "media_type" (.str (← read readString))
  let n ← read readArraySize
  assign "_content" (.bytes (← read (readBytes n)))
  assign "principal_identifier_token" (.str (← read readString))
  assign "http_version" (.http (← read (readEnum HttpVersion)))

/-- rest/extension_rest_response.py:43-51. -/
def extensionRestResponse : Into Unit := do
  assign "status" (.status (← read (readEnum RestStatus)))
  let n ← read readArraySize
  assign "content" (.bytes (← read (readBytes n)))
  assign "content_type" (.str (← read readString))
  assign "headers" (.listDict (← read readStringArrayDict))
  assign "consumed_params" (.strs (pySet (← read readStringArray)))
  assign "content_consumed" (.bool (← read readBoolean))

/-- rest/rest_execute_on_extension_response.py:36-44. -/
def restExecuteOnExtensionResponse : Into Unit := do
  assign "status" (.status (← read (readEnum RestStatus)))
  assign "content_type" (.str (← read readString))
  let n ← read readArraySize
  assign "content" (.bytes (← read (readBytes n)))
  assign "headers" (.listDict (← read readStringArrayDict))
  assign "consumed_params" (.strs (← read readStringArray))
  assign "content_consumed" (.bool (← read readBoolean))

/-- `IntegerSetting.Parser` and `LongSetting.Parser`, settings/integer_setting.py:45-50, settings/long_setting.py:44-49. -/
def intParser (number : Reader Int) : Into Unit := do
  assign "min_value" (.int (← read number))
  assign "max_value" (.int (← read number))
  assign "key" (.str (← read readString))
  assign "is_filtered" (.bool (← read readBoolean))

/-- `FloatSetting.Parser` and `DoubleSetting.Parser`, settings/float_setting.py:37-42, settings/double_setting.py:37-42. -/
def floatParser (number : Reader F64) : Into Unit := do
  assign "min_value" (.f64 (← read number))
  assign "max_value" (.f64 (← read number))
  assign "key" (.str (← read readString))
  assign "is_filtered" (.bool (← read readBoolean))

/-- `TimeValueSetting.Parser`, settings/time_value_setting.py:48-54. -/
def timeParser : Into Unit := do
  let has_max ← read readBoolean
  assign "key" (.str (← read readString))
  assign "min_value" (.time (← read readTimeValue))
  assign "max_value" (.time (← read (if has_max then readTimeValue else pure TimeParser.MINUS_ONE)))
  assign "is_filtered" (.bool (← read readBoolean))

/-- `ByteSizeValueSetting.Parser`, settings/byte_size_value_setting.py:47-51. -/
def sizeParser : Into Unit := do
  assign "min_value" (.size (← read readByteSizeValue))
  assign "max_value" (.size (← read readByteSizeValue))
  assign "key" (.str (← read readString))

/-- settings/regex_validator.py:28-31. -/
def regexValidator : Into Unit := do
  assign "regex" (.str (← read readString))
  assign "is_matching" (.bool (← read readBoolean))

/-- transport/byte_size_value.py:60-63. -/
def byteSizeValue : Into Unit := do
  assign "size" (.int (← read readZLong))
  assign "unit" (.unit (← read (readEnum ByteSizeUnit)))

end Into
end Verif
