import Verif.Model.StreamInput
import Verif.Model.StreamOutput
/-!
# The transport messages of the handshakes and of the extension initialisation

One `readFrom` / `writeTo` pair per class of /repo/src/opensearch_sdk_py/transport.  Every
`read_from` overwrites all fields of the object, so the model's readers start from nothing.
-/

namespace Verif
open Py StreamInput StreamOutput

/-- `TaskId`, transport/task_id.py:18-21. -/
structure TaskId where
  node_id : String := ""
  id : Option Int := none
  deriving DecidableEq, Repr

namespace TaskId
/-- `read_from`, transport/task_id.py:23-29. -/
def readFrom : Reader TaskId := do
  let node_id ← readString
  if node_id ≠ "" then return ⟨node_id, some (← readLong)⟩ else return ⟨node_id, none⟩
/-- `write_to`, transport/task_id.py:31-35; `write_long(None)` is an AttributeError. -/
def writeTo (t : TaskId) : W :=
  writeString t.node_id ++ (if t.node_id ≠ "" then
    (match t.id with
     | some i => writeLong i
     | none => W.fail .attribute)
    else W.nil)
end TaskId

/-- `TransportAddress`, transport/transport_address.py:17-21.  `address` is the IPv4 address as a
number (`ipaddress.IPv4Address`, always below 2^32). -/
structure TransportAddress where
  address : Nat
  host_name : String
  port : Int
  deriving DecidableEq, Repr

/-- `str(ipaddress.IPv4Address(n))`: dotted decimal. -/
def dotted (n : Nat) : String :=
  s!"{n / 256 ^ 3 % 256}.{n / 256 ^ 2 % 256}.{n / 256 % 256}.{n % 256}"

/-- `ipaddress.IPv4Address(i)` of an int: AddressValueError when negative or over 32 bits. -/
def ipv4 (i : Int) : Reader Nat :=
  if i < 0 ∨ 2 ^ 32 ≤ i then Reader.throw .address else pure i.toNat

namespace TransportAddress
/-- `TransportAddress(address, port, host_name)`, transport/transport_address.py:18-21; the textual
address is given as its number (parsing dotted text is the standard library's business). -/
def new (address : Nat) (port : Int) (host_name : Option String) : TransportAddress :=
  ⟨address, (match host_name with | some h => if h ≠ "" then h else dotted address | none => dotted address),
    port⟩
/-- `read_from`, transport/transport_address.py:23-30. -/
def readFrom : Reader TransportAddress := do
  let addr_bytes ← readByte
  if addr_bytes ≠ 4 then Reader.throw .exception
  else do
    let i ← readInt
    let address ← ipv4 i
    let host_name ← readString
    let port ← readInt
    return ⟨address, host_name, port⟩
/-- `write_to`, transport/transport_address.py:32-37. -/
def writeTo (a : TransportAddress) : W :=
  writeByte 4 ++ (writeInt a.address ++ (writeString a.host_name ++ writeInt a.port))
end TransportAddress

/-- A role tuple `(name, abbreviation, can_contain_data)`, transport/discovery_node_role.py:9-14. -/
abbrev Role := String × String × Bool

/-- The built-in roles, transport/discovery_node_role.py:10-14. -/
def DATA_ROLE : Role := ("data", "d", true)
def INGEST_ROLE : Role := ("ingest", "i", false)
def CLUSTER_MANAGER_ROLE : Role := ("cluster_manager", "m", false)
def REMOTE_CLUSTER_CLIENT_ROLE : Role := ("remote_cluster_client", "r", false)
def SEARCH_ROLE : Role := ("search", "s", true)

/-- `DiscoveryNodeRole.BUILT_IN_ROLES`, transport/discovery_node_role.py:16-22. -/
def BUILT_IN_ROLES : List Role := [DATA_ROLE, INGEST_ROLE, CLUSTER_MANAGER_ROLE, REMOTE_CLUSTER_CLIENT_ROLE, SEARCH_ROLE]

/-- `DiscoveryNodeRole().role_dict`, transport/discovery_node_role.py:24-27. -/
def roleDict : Dict String Role := BUILT_IN_ROLES.foldl (fun d r => d.set r.1 r) []

/-- An initialised `DiscoveryNode`, transport/discovery_node.py:22-46.  `roles` is the set in
iteration order (an `OrderedSet` after reading, a plain `set` otherwise).  Objects created without
node id or address (attributes unset, transport/discovery_node.py:36) only serve as targets of `read_from`
and are not represented. -/
structure DiscoveryNode where
  node_name : String
  node_id : String
  ephemeral_id : String
  host_name : String
  host_address : String
  address : TransportAddress
  attributes : Dict String String
  roles : List Role
  version : Version
  deriving DecidableEq, Repr

namespace DiscoveryNode
/-- One role, transport/discovery_node.py:59. -/
def readRole : Reader Role := do
  let a ← readString
  let b ← readString
  let c ← readBoolean
  return (a, b, c)
/-- One role, transport/discovery_node.py:73-75. -/
def writeRole (r : Role) : W := writeString r.1 ++ (writeString r.2.1 ++ writeBoolean r.2.2)
/-- `read_from`, transport/discovery_node.py:48-61. -/
def readFrom : Reader DiscoveryNode := do
  let node_name ← readString
  let node_id ← readString
  let ephemeral_id ← readString
  let host_name ← readString
  let host_address ← readString
  let address ← TransportAddress.readFrom
  let attributes ← readStringDict
  let roles_size ← readVInt
  let roles ← readRole.times roles_size.toNat
  let version ← readVersion
  return ⟨node_name, node_id, ephemeral_id, host_name, host_address, address, attributes, pySet roles,
    version⟩
/-- `write_to`, transport/discovery_node.py:63-77. -/
def writeTo (n : DiscoveryNode) : W :=
  writeString n.node_name ++ (writeString n.node_id ++ (writeString n.ephemeral_id ++
  (writeString n.host_name ++ (writeString n.host_address ++ (n.address.writeTo ++
  (writeStringDict n.attributes ++ (writeVInt n.roles.length ++ (W.forEach writeRole n.roles ++
  writeVersion n.version))))))))
/-- `DiscoveryNode(...)` with a node id and an address, transport/discovery_node.py:23-46.
`fresh` is the generated ephemeral id (`uuid4`, see `Model/Base64.lean`).  Empty strings count as
missing, as in the code (`if ephemeral_id`). -/
def new (node_name node_id : String) (ephemeral_id host_name host_address : Option String)
    (address : TransportAddress) (attributes : Dict String String) (roles : List Role)
    (version : Option Version) (fresh : String) : DiscoveryNode where
  node_name := node_name
  node_id := node_id
  ephemeral_id := match ephemeral_id with | some e => if e ≠ "" then e else fresh | none => fresh
  host_name := match host_name with
    | some h => if h ≠ "" then h else address.host_name | none => address.host_name
  host_address := match host_address with
    | some h => if h ≠ "" then h else dotted address.address | none => dotted address.address
  address := address
  attributes := attributes
  roles := roles
  version := version.getD (Version.new Version.CURRENT)
end DiscoveryNode

/-- `ExtensionDependency`, transport/extension_dependency.py:17-20. -/
structure ExtensionDependency where
  unique_id : String
  version : Version
  deriving DecidableEq, Repr

namespace ExtensionDependency
/-- `read_from`, transport/extension_dependency.py:22-25. -/
def readFrom : Reader ExtensionDependency := do
  let unique_id ← readString
  let version ← readVersion
  return ⟨unique_id, version⟩
/-- `write_to`, transport/extension_dependency.py:27-30. -/
def writeTo (d : ExtensionDependency) : W := writeString d.unique_id ++ writeVersion d.version
end ExtensionDependency

/-- `DiscoveryExtensionNode`, transport/discovery_extension_node.py:18-37. -/
structure DiscoveryExtensionNode extends DiscoveryNode where
  minimum_compatible_version : Version
  dependencies : List ExtensionDependency
  deriving DecidableEq, Repr

namespace DiscoveryExtensionNode
/-- `read_from`, transport/discovery_extension_node.py:39-46. -/
def readFrom : Reader DiscoveryExtensionNode := do
  let node ← DiscoveryNode.readFrom
  let minimum_compatible_version ← readVersion
  let num_dependencies ← readVInt
  let dependencies ← ExtensionDependency.readFrom.times num_dependencies.toNat
  return { node with minimum_compatible_version, dependencies }
/-- `write_to`, transport/discovery_extension_node.py:48-54. -/
def writeTo (n : DiscoveryExtensionNode) : W :=
  n.toDiscoveryNode.writeTo ++ (writeVersion n.minimum_compatible_version ++
    (writeVInt n.dependencies.length ++ W.forEach ExtensionDependency.writeTo n.dependencies))
end DiscoveryExtensionNode

/-- `InitializeExtensionRequest`, transport/initialize_extension_request.py:19-27 with the parent
task id of transport/transport_request.py:16-19. -/
structure InitializeExtensionRequest where
  parent_task_id : TaskId
  source_node : DiscoveryNode
  extension : DiscoveryExtensionNode
  deriving DecidableEq, Repr

namespace InitializeExtensionRequest
/-- `read_from`, transport/initialize_extension_request.py:29-33. -/
def readFrom : Reader InitializeExtensionRequest := do
  let parent_task_id ← TaskId.readFrom
  let source_node ← DiscoveryNode.readFrom
  let extension ← DiscoveryExtensionNode.readFrom
  return ⟨parent_task_id, source_node, extension⟩
/-- `write_to`, transport/initialize_extension_request.py:35-39. -/
def writeTo (m : InitializeExtensionRequest) : W :=
  m.parent_task_id.writeTo ++ (m.source_node.writeTo ++ m.extension.writeTo)
end InitializeExtensionRequest

/-- `InitializeExtensionResponse`, transport/initialize_extension_response.py:17-21. -/
structure InitializeExtensionResponse where
  name : String
  implemented_interfaces : List String
  deriving DecidableEq, Repr

namespace InitializeExtensionResponse
/-- `read_from`, transport/initialize_extension_response.py:23-27. -/
def readFrom : Reader InitializeExtensionResponse := do
  let name ← readString
  let implemented_interfaces ← readStringArray
  return ⟨name, implemented_interfaces⟩
/-- `write_to`, transport/initialize_extension_response.py:29-33. -/
def writeTo (m : InitializeExtensionResponse) : W :=
  writeString m.name ++ writeStringArray m.implemented_interfaces
end InitializeExtensionResponse

/-- `AcknowledgedResponse`, transport/acknowledged_response.py:17-20. -/
structure AcknowledgedResponse where
  status : Bool := false
  deriving DecidableEq, Repr

namespace AcknowledgedResponse
/-- `read_from`, transport/acknowledged_response.py:22-25. -/
def readFrom : Reader AcknowledgedResponse := do
  let status ← readBoolean
  return ⟨status⟩
/-- `write_to`, transport/acknowledged_response.py:27-30. -/
def writeTo (m : AcknowledgedResponse) : W := writeBoolean m.status
end AcknowledgedResponse

/-- `TransportHandshakerHandshakeRequest`, transport/transport_handshaker_handshake_request.py:18-21. -/
structure HandshakerRequest where
  parent_task_id : TaskId
  version : Option Version
  deriving DecidableEq, Repr

namespace HandshakerRequest
/-- `read_from`, transport/transport_handshaker_handshake_request.py:23-27: the length prefix is
read and ignored. -/
def readFrom : Reader HandshakerRequest := do
  let parent_task_id ← TaskId.readFrom
  let _ ← readVInt
  let version ← readVersion
  return ⟨parent_task_id, some version⟩
/-- `write_to`, transport/transport_handshaker_handshake_request.py:29-35. -/
def writeTo (m : HandshakerRequest) : W :=
  m.parent_task_id.writeTo ++ (match m.version with
    | some v => writeVInt (versionSize v) ++ writeVersion v
    | none => W.nil)
end HandshakerRequest

/-- `TransportHandshakerHandshakeResponse`, transport/transport_handshaker_handshake_response.py:20-23. -/
structure HandshakerResponse where
  version : Version
  deriving DecidableEq, Repr

namespace HandshakerResponse
/-- `read_from`, transport/transport_handshaker_handshake_response.py:25-28. -/
def readFrom : Reader HandshakerResponse := do
  let version ← readVersion
  return ⟨version⟩
/-- `write_to`, transport/transport_handshaker_handshake_response.py:30-33. -/
def writeTo (m : HandshakerResponse) : W := writeVersion m.version
end HandshakerResponse

/-- `TransportServiceHandshakeRequest`, transport/transport_service_handshake_request.py:19-21:
just the parent task id. -/
structure ServiceHandshakeRequest where
  parent_task_id : TaskId
  deriving DecidableEq, Repr

namespace ServiceHandshakeRequest
/-- `read_from`, transport/transport_service_handshake_request.py:23-25. -/
def readFrom : Reader ServiceHandshakeRequest := do
  let parent_task_id ← TaskId.readFrom
  return ⟨parent_task_id⟩
/-- `write_to`, transport/transport_service_handshake_request.py:27-29. -/
def writeTo (m : ServiceHandshakeRequest) : W := m.parent_task_id.writeTo
end ServiceHandshakeRequest

/-- `TransportServiceHandshakeResponse`, transport/transport_service_handshake_response.py:22-32. -/
structure ServiceHandshakeResponse where
  discovery_node : Option DiscoveryNode
  cluster_name : String
  version : Version
  deriving DecidableEq, Repr

namespace ServiceHandshakeResponse
/-- `read_from`, transport/transport_service_handshake_response.py:34-43. -/
def readFrom : Reader ServiceHandshakeResponse := do
  let present ← readBoolean
  let discovery_node ← if present then some <$> DiscoveryNode.readFrom else pure none
  let cluster_name ← readString
  let version ← readVersion
  return ⟨discovery_node, cluster_name, version⟩
/-- `write_to`, transport/transport_service_handshake_response.py:45-54. -/
def writeTo (m : ServiceHandshakeResponse) : W :=
  (match m.discovery_node with
   | some n => writeBoolean true ++ n.writeTo
   | none => writeBoolean false) ++ (writeString m.cluster_name ++ writeVersion m.version)
end ServiceHandshakeResponse

end Verif
