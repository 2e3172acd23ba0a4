import Verif.Py.Repr
import Verif.Model.VersionDisplay
import Verif.Model.Host
/-!
# The `__str__` methods, and the log lines made of them

Every `__str__` of /repo/src/opensearch_sdk_py that is not modelled elsewhere (`Version`: see
`Model/VersionDisplay.lean`; `NamedRoute`: `Model/Rest.lean`; `TimeValue` and `ByteSizeValue`:
`Model/TimeValue.lean`), and the lines `AsyncExtensionHost.on_input` and the `send` methods log.
What Python decides is in the parameter `Shown`.
-/

namespace Verif
open Py

/-- What the printed texts depend on besides the objects: the rounding of `/` (for versions), the
printable characters, the iteration order of sets, and the memory addresses in the default `repr` of
objects (as hexadecimal digits). -/
structure Shown where
  fd : FloatDiv
  printable : Char → Bool
  ho : HashOrder
  address : Nat → List (Fin 16)

/-- `name` of a `RestStatus` member, rest/rest_status.py:18-415. -/
def RestStatus.name : RestStatus → String
  | CONTINUE => "CONTINUE" | SWITCHING_PROTOCOLS => "SWITCHING_PROTOCOLS" | OK => "OK"
  | CREATED => "CREATED" | ACCEPTED => "ACCEPTED"
  | NON_AUTHORITATIVE_INFORMATION => "NON_AUTHORITATIVE_INFORMATION" | NO_CONTENT => "NO_CONTENT"
  | RESET_CONTENT => "RESET_CONTENT" | PARTIAL_CONTENT => "PARTIAL_CONTENT"
  | MULTI_STATUS => "MULTI_STATUS" | MULTIPLE_CHOICES => "MULTIPLE_CHOICES"
  | MOVED_PERMANENTLY => "MOVED_PERMANENTLY" | FOUND => "FOUND" | SEE_OTHER => "SEE_OTHER"
  | NOT_MODIFIED => "NOT_MODIFIED" | USE_PROXY => "USE_PROXY"
  | TEMPORARY_REDIRECT => "TEMPORARY_REDIRECT" | BAD_REQUEST => "BAD_REQUEST"
  | UNAUTHORIZED => "UNAUTHORIZED" | PAYMENT_REQUIRED => "PAYMENT_REQUIRED"
  | FORBIDDEN => "FORBIDDEN" | NOT_FOUND => "NOT_FOUND"
  | METHOD_NOT_ALLOWED => "METHOD_NOT_ALLOWED" | NOT_ACCEPTABLE => "NOT_ACCEPTABLE"
  | PROXY_AUTHENTICATION => "PROXY_AUTHENTICATION" | REQUEST_TIMEOUT => "REQUEST_TIMEOUT"
  | CONFLICT => "CONFLICT" | GONE => "GONE" | LENGTH_REQUIRED => "LENGTH_REQUIRED"
  | PRECONDITION_FAILED => "PRECONDITION_FAILED"
  | REQUEST_ENTITY_TOO_LARGE => "REQUEST_ENTITY_TOO_LARGE"
  | REQUEST_URI_TOO_LONG => "REQUEST_URI_TOO_LONG"
  | UNSUPPORTED_MEDIA_TYPE => "UNSUPPORTED_MEDIA_TYPE"
  | REQUESTED_RANGE_NOT_SATISFIED => "REQUESTED_RANGE_NOT_SATISFIED"
  | EXPECTATION_FAILED => "EXPECTATION_FAILED" | MISDIRECTED_REQUEST => "MISDIRECTED_REQUEST"
  | UNPROCESSABLE_ENTITY => "UNPROCESSABLE_ENTITY" | LOCKED => "LOCKED"
  | FAILED_DEPENDENCY => "FAILED_DEPENDENCY" | TOO_MANY_REQUESTS => "TOO_MANY_REQUESTS"
  | INTERNAL_SERVER_ERROR => "INTERNAL_SERVER_ERROR" | NOT_IMPLEMENTED => "NOT_IMPLEMENTED"
  | BAD_GATEWAY => "BAD_GATEWAY" | SERVICE_UNAVAILABLE => "SERVICE_UNAVAILABLE"
  | GATEWAY_TIMEOUT => "GATEWAY_TIMEOUT"
  | HTTP_VERSION_NOT_SUPPORTED => "HTTP_VERSION_NOT_SUPPORTED"
  | INSUFFICIENT_STORAGE => "INSUFFICIENT_STORAGE"

/-- `name` of a `HttpVersion` member, rest/http_version.py:12. -/
def HttpVersion.name : HttpVersion → String
  | HTTP_1_0 => "HTTP_1_0" | HTTP_1_1 => "HTTP_1_1"

/-- An enum member, or `None`, in an f-string: `Enum.__format__` is `str`, the class name, a dot and
the member's name. -/
def enumStr (klass : String) : Option String → String
  | some name => klass ++ "." ++ name
  | none => "None"

namespace Shown
variable (p : Shown)

/-- `repr(s)`. -/
def str (s : String) : String := strRepr p.printable s
/-- `repr` of a `list[str]`. -/
def strs (l : List String) : String := listRepr (l.map p.str)
/-- `repr` of a `dict[str, str]`. -/
def dict (d : Dict String String) : String := dictRepr (d.map fun kv => (p.str kv.1, p.str kv.2))
/-- `repr` of a `dict[str, list[str]]`. -/
def listDict (d : Dict String (List String)) : String :=
  dictRepr (d.map fun kv => (p.str kv.1, p.strs kv.2))
/-- `repr` of a `dict[str, set[str]]`. -/
def setDict (d : Dict String (List String)) : String :=
  dictRepr (d.map fun kv => (p.str kv.1, setRepr ((p.ho.order kv.2).map p.str)))
/-- `repr` of a role tuple, transport/discovery_node_role.py:9-14. -/
def role (r : Role) : String := tupleRepr [p.str r.1, p.str r.2.1, boolRepr r.2.2]
/-- The roles of a node: an `OrderedSet` (of `sortedcollections`) when the node was read from a
stream (transport/discovery_node.py:56), a `set` otherwise. -/
def roles (ordered : Bool) (l : List Role) : String :=
  if ordered then "OrderedSet(" ++ listRepr (l.map p.role) ++ ")" else setRepr (l.map p.role)
/-- `str(version)`, transport/version.py:33-34. -/
def version (v : Version) : String := v.str p.fd
/-- The default `repr` of the `i`-th of some objects without `__repr__`. -/
def object (klass : String) (i : Nat) : String :=
  "<" ++ klass ++ " object at 0x" ++ String.ofList ((p.address i).map fun d => hexDigit d) ++ ">"

end Shown

variable (p : Shown)

/-- The `version` of a header in an f-string. -/
def VerField.str : VerField → String
  | .obj v => p.version v
  | .none => "None"
  | .int n => toString n

/-- `TcpHeader.__str__`, transport/tcp_header.py:73-74. -/
def TcpHeader.str (h : TcpHeader) : String :=
  "prefix=" ++ bytesRepr h.marker ++ ", version=" ++ h.version.str p ++ ", type=" ++
    p.strs h.statuses ++ ", message=" ++ toString h.size ++ " byte(s), id=" ++ toString h.request_id

/-- `ThreadContextStruct.__str__`, transport/thread_context_struct.py:37-38. -/
def ThreadContext.str (c : ThreadContext) : String :=
  "req=" ++ p.dict c.request_headers ++ ", res=" ++ p.setDict c.response_headers

/-- `OutboundMessage.__str__`, transport/outbound_message.py:108-109 with
transport/network_message.py:61-62.  `message` is the text of the message object; there is none
(`None`) in a message that was read from a stream. -/
def OutboundMessage.str (m : OutboundMessage) (message : Option String) : String :=
  m.tcp_header.str p ++ ", ctx=" ++ m.ctx.str p ++ ", " ++ message.getD "None"

/-- `OutboundMessageRequest.__str__`, transport/outbound_message_request.py:53-54. -/
def OutboundRequest.str (m : OutboundRequest) (message : Option String) : String :=
  m.toOutboundMessage.str p message ++ ", features=" ++ p.strs m.features ++ ", action=" ++ m.action

/-- `OutboundMessageResponse.__str__`, transport/outbound_message_response.py:39-40. -/
def OutboundResponse.str (m : OutboundResponse) (message : Option String) : String :=
  m.toOutboundMessage.str p message ++ ", features=" ++ p.strs m.features

/-- `TaskId.__str__`, transport/task_id.py:37-38, which is also that of the requests without one of
their own (transport/transport_request.py:31-32). -/
def TaskId.str (t : TaskId) : String :=
  "node=" ++ t.node_id ++ ", id=" ++ (match t.id with | some i => toString i | none => "None")

/-- `DiscoveryNode.__str__`, transport/discovery_node.py:79-80. -/
def DiscoveryNode.str (ordered : Bool) (n : DiscoveryNode) : String :=
  "id=" ++ n.node_id ++ ", version=" ++ p.version n.version ++ ", name=" ++ n.node_name ++ ", host=" ++
    n.host_name ++ ", addr=" ++ n.host_address ++ ", attr=" ++ p.dict n.attributes ++ ", roles=" ++
    p.roles ordered n.roles

/-- `DiscoveryExtensionNode.__str__`, transport/discovery_extension_node.py:56-57. -/
def DiscoveryExtensionNode.str (ordered : Bool) (n : DiscoveryExtensionNode) : String :=
  n.toDiscoveryNode.str p ordered ++ ", compatible>=" ++ p.version n.minimum_compatible_version ++
    ", deps=" ++ listRepr (n.dependencies.mapIdx fun i _ =>
      p.object "opensearch_sdk_py.transport.extension_dependency.ExtensionDependency" i)

/-- `InitializeExtensionRequest.__str__`, transport/initialize_extension_request.py:41-42, of one
read from a stream. -/
def InitializeExtensionRequest.str (m : InitializeExtensionRequest) : String :=
  m.source_node.str p true ++ ", " ++ m.extension.str p true

/-- `InitializeExtensionResponse.__str__`, transport/initialize_extension_response.py:35-36. -/
def InitializeExtensionResponse.str (m : InitializeExtensionResponse) : String :=
  "name=" ++ m.name ++ ", interfaces=" ++ p.strs m.implemented_interfaces

/-- `AcknowledgedResponse.__str__`, transport/acknowledged_response.py:32-33. -/
def AcknowledgedResponse.str (m : AcknowledgedResponse) : String := "status=" ++ boolRepr m.status

/-- `TransportHandshakerHandshakeRequest.__str__`,
transport/transport_handshaker_handshake_request.py:37-38. -/
def HandshakerRequest.str (m : HandshakerRequest) : String :=
  "version=" ++ (match m.version with | some v => p.version v | none => "None")

/-- `TransportHandshakerHandshakeResponse.__str__`,
transport/transport_handshaker_handshake_response.py:35-36. -/
def HandshakerResponse.str (m : HandshakerResponse) : String := "version=" ++ p.version m.version

/-- `TransportServiceHandshakeResponse.__str__`,
transport/transport_service_handshake_response.py:56-57. -/
def ServiceHandshakeResponse.str (ordered : Bool) (m : ServiceHandshakeResponse) : String :=
  (match m.discovery_node with | some n => n.str p ordered | none => "None") ++ ", cluster name=" ++
    m.cluster_name ++ ", version=" ++ p.version m.version

/-- `ExtensionRestRequest.__str__`, rest/extension_rest_request.py:94-98.  The second of the two
literals is not an f-string. -/
def ExtensionRestRequest.str (r : ExtensionRestRequest) : String :=
  "http version=" ++ enumStr "HttpVersion" (r.http_version.map HttpVersion.name) ++ ", method=" ++
    enumStr "RestMethod" (r.method.map RestMethod.name) ++ ", uri=" ++ r.uri ++ ", path=" ++ r.path ++
    ", params=" ++ p.dict r.params ++ ", " ++
    "headers={self.headers}, media type={self.media_type}, content={len(self.content)} byte(s), pit={self.principal_identifier_token}"

/-- `RestExecuteOnExtensionResponse.__str__`, rest/rest_execute_on_extension_response.py:57-58. -/
def RestExecuteOnExtensionResponse.str (r : RestExecuteOnExtensionResponse) : String :=
  "status=" ++ enumStr "RestStatus" (r.status.map RestStatus.name) ++ ", content_type=" ++
    r.content_type ++ ", headers=" ++ p.listDict r.headers ++ ", content=" ++ toString r.content.length ++
    " byte(s)"

/-- The records `on_input` logs about what it received, in order, before it hands the message on
(server/async_extension_host.py:48-65): the header, then the request, the response, or the error.
A message that cannot be read raises, after what was logged. -/
def receivedRecords (raw : Bytes) : List String :=
  match TcpHeader.readFrom raw with
  | .error _ => []
  | .ok (header, input) =>
    ("< " ++ header.str p) :: (if header.isRequest then
      match (OutboundRequest.new none [] none .none "" none false false 0).1 with
      | .error _ => []
      | .ok blank =>
        match blank.readFrom (some header) input with
        | .error _ => []
        | .ok (request, _) => ["< " ++ request.str p none]
    else
      match (OutboundResponse.new none [] none .none none false false 0).1 with
      | .error _ => []
      | .ok blank =>
        match blank.readFrom (some header) input with
        | .error _ => []
        | .ok (response, _) =>
          if response.tcp_header.isError then ["< error " ++ header.str p]
          else ["< response " ++ response.str p none])

/-- The record `RequestHandler.send` logs about a reply, actions/request_handler.py:32-38. -/
def sentRecord (m : OutboundResponse) (message : String) : String :=
  "> " ++ m.str p (some message) ++ ", size=" ++ toString (m.writeTo p.ho).out.length ++ " byte(s)"

/-- The record `ExtensionRestRequestHandler.handle` logs about a REST request,
actions/internal/extension_rest_request_handler.py:28-29. -/
def restRecord (r : ExtensionRestRequest) : String := "< " ++ r.str p

/-- The record `DiscoveryExtensionsRequestHandler.handle` logs about an initialisation,
actions/internal/discovery_extensions_request_handler.py:35-36. -/
def initRecord (m : InitializeExtensionRequest) : String := "< " ++ m.str p

/-- The record `on_connection` logs of every read, at level INFO: the bytes themselves,
server/async_host.py:49. -/
def readRecord (raw : Bytes) : String := bytesRepr raw

/-- The records of a read (`<`) and of what is sent (`>`) at level DEBUG, server/async_host.py:51 and 55. -/
def rawRecord (direction : String) (data : Bytes) : String :=
  direction ++ " #" ++ bytesRepr data ++ ", size=" ++ toString data.length ++ " byte(s)"

end Verif
