import Verif.Model.Messages
import Verif.Model.Message
import Verif.Model.Settings
/-!
# Constructors with arguments left out

`DiscoveryNode(...)` and the messages that hold nodes, versions and settings, with any of their arguments missing.  An
argument that is `None` by default is an `Option`; one with another default is a structure field with that default.
-/

namespace Verif
open Py StreamInput StreamOutput

/-- The arguments of `DiscoveryNode(...)`, transport/discovery_node.py:23-34. -/
structure NodeArgs where
  node_name : String := ""
  node_id : Option String := none
  ephemeral_id : Option String := none
  host_name : Option String := none
  host_address : Option String := none
  address : Option TransportAddress := none
  attributes : Dict String String := []
  roles : List Role := []
  version : Option Version := none
  deriving DecidableEq, Repr

/-- A `DiscoveryNode` object: without an id or an address the constructor sets no attribute at all (`none`),
transport/discovery_node.py:35-46.  An empty id counts as missing; an address is never falsy (no `__bool__` or `__len__`). -/
def DiscoveryNode.make (a : NodeArgs) (fresh : String) : Option DiscoveryNode :=
  match a.node_id, a.address with
  | some i, some t =>
    if i ≠ "" then some (DiscoveryNode.new a.node_name i a.ephemeral_id a.host_name a.host_address t a.attributes a.roles
      a.version fresh)
    else none
  | _, _ => none

/-- `write_to` of such an object, transport/discovery_node.py:63-77: `self.node_name` of an object without attributes is
an AttributeError. -/
def DiscoveryNode.writeMade : Option DiscoveryNode → W
  | some n => n.writeTo
  | none => W.fail .attribute

/-- The arguments of `DiscoveryExtensionNode(...)`, transport/discovery_extension_node.py:19-28 (the versions are
`Version()` by default). -/
structure ExtensionNodeArgs where
  node_name : String := ""
  node_id : String := ""
  address : Option TransportAddress := none
  attributes : Dict String String := []
  version : Version := Version.new 0
  minimum_compatible_version : Version := Version.new 0
  dependencies : List ExtensionDependency := []
  deriving DecidableEq, Repr

/-- A `DiscoveryExtensionNode` object: the node part may have no attributes. -/
structure MadeExtensionNode where
  node : Option DiscoveryNode
  minimum_compatible_version : Version
  dependencies : List ExtensionDependency
  deriving DecidableEq, Repr

/-- `DiscoveryExtensionNode(...)`, transport/discovery_extension_node.py:29-37. -/
def MadeExtensionNode.make (a : ExtensionNodeArgs) (fresh : String) : MadeExtensionNode :=
  ⟨DiscoveryNode.make ⟨a.node_name, some a.node_id, none, none, none, a.address, a.attributes, [], some a.version⟩ fresh,
    a.minimum_compatible_version, a.dependencies⟩

/-- `write_to`, transport/discovery_extension_node.py:48-54. -/
def MadeExtensionNode.writeTo (n : MadeExtensionNode) : W :=
  DiscoveryNode.writeMade n.node ++ (writeVersion n.minimum_compatible_version ++
    (writeVInt n.dependencies.length ++ W.forEach ExtensionDependency.writeTo n.dependencies))

/-- `TransportServiceHandshakeResponse(...)`, transport/transport_service_handshake_response.py:23-32, and its
`write_to`, transport/transport_service_handshake_response.py:45-54.  The node given may be one without attributes. -/
def writeServiceHandshake (discovery_node : Option (Option DiscoveryNode)) (cluster_name : String)
    (version : Option Version) : W :=
  (match discovery_node with
   | some n => writeBoolean true ++ DiscoveryNode.writeMade n
   | none => writeBoolean false) ++
    (writeString cluster_name ++ writeVersion (version.getD (Version.new Version.CURRENT)))

/-- `InitializeExtensionRequest(source_node, extension)` and its `write_to`,
transport/initialize_extension_request.py:20-27, 35-39: `None.write_to` is an AttributeError. -/
def writeInitialize (task : TaskId) (source_node : Option (Option DiscoveryNode)) (extension : Option MadeExtensionNode) : W :=
  task.writeTo ++ ((match source_node with
    | some n => DiscoveryNode.writeMade n
    | none => W.fail .attribute) ++ (match extension with
    | some n => n.writeTo
    | none => W.fail .attribute))

/-- `TransportHandshakerHandshakeResponse(version)` and its `write_to`,
transport/transport_handshaker_handshake_response.py:21-23, 30-33: `None.id` is an AttributeError
(transport/stream_output.py:61-62). -/
def writeHandshakerResponse : Option Version → W
  | some v => HandshakerResponse.writeTo ⟨v⟩
  | none => W.fail .attribute

/-- `EnvironmentSettingsResponse(environment_settings)` and its `write_to`,
transport/environment_settings_response.py:19-21, 28-31: `None.write_to` is an AttributeError. -/
def writeEnvironment : Option (Dict String PyVal) → W
  | some d => Settings.writeTo d
  | none => W.fail .attribute

/-- The arguments of `TcpHeader(...)`, transport/tcp_header.py:38-46. -/
structure HeaderArgs where
  marker : Bytes := TcpHeader.ES
  request_id : Option Int := none
  status : Int := 0
  version : Option Version := none
  size : Int := TcpHeader.MESSAGE_SIZE
  variable_header_size : Int := 0
  deriving DecidableEq, Repr

/-- `TcpHeader(...)`, transport/tcp_header.py:47-52; without a version the attribute holds the *int* `Version.CURRENT`
(transport/tcp_header.py:43). -/
def TcpHeader.make (a : HeaderArgs) (ids : Nat) : TcpHeader × Nat :=
  let version := match a.version with | some v => VerField.obj v | none => VerField.int Version.CURRENT
  let (h, ids) := TcpHeader.new version a.status a.request_id ids
  ({ h with marker := a.marker, size := a.size, variable_header_size := a.variable_header_size }, ids)

end Verif
