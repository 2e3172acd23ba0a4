import Verif.Spec.Ascii
import Verif.Model.Messages
import Verif.Model.Rest
import Verif.Model.Settings
import Verif.Model.Message
import Verif.Spec.Generic
/-!
# Specification: Which values fit the wire format
-/

namespace Verif
open Py StreamInput StreamOutput

/-- Every field fits its place on the wire. -/
structure HeaderOK (h : TcpHeader) (v : Version) : Prop where
  marker : h.marker.length = 2
  size1 : -(2 ^ 31) ≤ h.size
  size2 : h.size < 2 ^ 31
  id1 : -(2 ^ 63) ≤ h.request_id
  id2 : h.request_id < 2 ^ 63
  status1 : -(2 ^ 7) ≤ h.status
  status2 : h.status < 2 ^ 7
  version : h.version = .obj v
  version1 : 0 ≤ v.id
  version2 : v.id < 2 ^ 32
  var1 : -(2 ^ 31) ≤ h.variable_header_size
  var2 : h.variable_header_size < 2 ^ 31

/-- A thread context that fits the wire format (every real dict/set with strings under 2^31
bytes). -/
def CtxOK (c : ThreadContext) : Prop := StrDictOK c.request_headers ∧ StrSetDictOK c.response_headers

/-- Every header string is ASCII or under 128 encoded bytes: the size prediction is right (C14). -/
def CtxSized (c : ThreadContext) : Prop :=
  (∀ kv ∈ c.request_headers, (Ascii kv.1 ∨ (utf8 kv.1).length < 128) ∧
    (Ascii kv.2 ∨ (utf8 kv.2).length < 128)) ∧
  (∀ kv ∈ c.response_headers, (Ascii kv.1 ∨ (utf8 kv.1).length < 128) ∧
    ∀ s ∈ kv.2, Ascii s ∨ (utf8 s).length < 128)

/-- Length of optional bytes (`None` is nothing). -/
def optLen (b : Option Bytes) : Nat := (b.getD []).length

/-- The size prediction of a string agrees with its bytes: the v_int of its code point count is as
long as the v_int of its byte count. -/
def SizedRight (s : String) : Prop := vIntSize s.length = vIntSize (utf8 s).length

/-- A version that fits the v_int wire form (every version with a 32-bit id does). -/
def VersionOK (v : Version) : Prop := 0 ≤ v.id ∧ v.id < 2 ^ 35

/-- A task id as the SDK builds them: a node id with a 64-bit number, or neither. -/
def TaskIdOK (t : TaskId) : Prop :=
  StrOK t.node_id ∧ (match t.id with
    | some i => t.node_id ≠ "" ∧ -(2 ^ 63) ≤ i ∧ i < 2 ^ 63
    | none => t.node_id = "")

/-- An address the SDK can write: below 128.0.0.0, with a 32-bit port. -/
def AddressOK (a : TransportAddress) : Prop :=
  a.address < 2 ^ 31 ∧ StrOK a.host_name ∧ -(2 ^ 31) ≤ a.port ∧ a.port < 2 ^ 31

/-- A role whose strings fit. -/
def RoleOK (r : Role) : Prop := StrOK r.1 ∧ StrOK r.2.1

/-- A node that fits: strings under 2^31 bytes, an address that fits, distinct roles. -/
def NodeOK (n : DiscoveryNode) : Prop :=
  StrOK n.node_name ∧ StrOK n.node_id ∧ StrOK n.ephemeral_id ∧ StrOK n.host_name ∧
  StrOK n.host_address ∧ AddressOK n.address ∧ StrDictOK n.attributes ∧
  (n.roles.length < 2 ^ 35 ∧ n.roles.Nodup ∧ ∀ r ∈ n.roles, RoleOK r) ∧ VersionOK n.version

/-- A dependency that fits. -/
def DependencyOK (d : ExtensionDependency) : Prop := StrOK d.unique_id ∧ VersionOK d.version

/-- An extension node that fits: as a node, with its dependencies. -/
def ExtensionNodeOK (n : DiscoveryExtensionNode) : Prop :=
  NodeOK n.toDiscoveryNode ∧ VersionOK n.minimum_compatible_version ∧
  n.dependencies.length < 2 ^ 35 ∧ ∀ d ∈ n.dependencies, DependencyOK d

/-- Settings that fit the wire: distinct keys, serialisable values (see C13). -/
def SettingsOK (depth : Nat) (d : Dict String PyVal) : Prop :=
  d.WF ∧ d.length < 2 ^ 35 ∧ ∀ kv ∈ d, StrOK kv.1 ∧ GenericOK kv.2 ∧ nesting kv.2 ≤ depth

/-- A REST request that fits the wire: method and HTTP version present. -/
structure RequestOK (r : ExtensionRestRequest) : Prop where
  task : TaskIdOK r.parent_task_id
  method : r.method ≠ none
  uri : StrOK r.uri
  path : StrOK r.path
  params : StrDictOK r.params
  headers : StrsDictOK r.headers
  media : StrOK r.media_type
  content : r.content_.length ≤ 2 ^ 31
  pit : StrOK r.principal_identifier_token
  http : r.http_version ≠ none

/-- A REST response that fits the wire: a status is set, the consumed parameters are a set. -/
structure ResponseOK (r : ExtensionRestResponse) : Prop where
  status : r.status ≠ none
  content : r.content.length ≤ 2 ^ 31
  content_type : StrOK r.content_type
  headers : StrsDictOK r.headers
  params : StrsOK r.consumed_params
  nodup : r.consumed_params.Nodup

/-- The same for the message sent to OpenSearch. -/
structure ExecuteOK (r : RestExecuteOnExtensionResponse) : Prop where
  status : r.status ≠ none
  content : r.content.length ≤ 2 ^ 31
  content_type : StrOK r.content_type
  headers : StrsDictOK r.headers
  params : StrsOK r.consumed_params

/-- The roles OpenSearch knows by name: name, abbreviation, whether such a node holds data. -/
def knownRoles : List (String × String × Bool) :=
  [("data", "d", true), ("ingest", "i", false), ("cluster_manager", "m", false), ("remote_cluster_client", "r", false),
   ("search", "s", true)]

end Verif
