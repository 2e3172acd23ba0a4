import Verif.Model.Reuse
/-!
# Specification: what an object holds after `read_from`
-/

namespace Verif
open Py StreamInput

/-- The classes with a `read_from` that assigns attributes, except messages with a header (their reading is in
`Model/Message.lean`) and settings. -/
inductive Readable where
  | tcpHeader | threadContext | taskId | transportRequest | transportAddress | discoveryNode | extensionDependency
  | discoveryExtensionNode | initializeExtensionRequest | initializeExtensionResponse | acknowledgedResponse
  | handshakerRequest | handshakerResponse | serviceHandshakeResponse | registerRestActionsRequest
  | extensionTransportRequest | extensionRestRequest | extensionRestResponse | restExecuteOnExtensionResponse
  | integerParser | longParser | floatParser | doubleParser | timeParser | sizeParser | regexValidator | byteSizeValue
  deriving DecidableEq

namespace Readable

/-- The `read_from` of the class. -/
def into : Readable → Into Unit
  | tcpHeader => Into.tcpHeader
  | threadContext => Into.threadContext
  | taskId => Into.taskId
  | transportRequest => Into.transportRequest
  | transportAddress => Into.transportAddress
  | discoveryNode => Into.discoveryNode
  | extensionDependency => Into.extensionDependency
  | discoveryExtensionNode => Into.discoveryExtensionNode
  | initializeExtensionRequest => Into.initializeExtensionRequest
  | initializeExtensionResponse => Into.initializeExtensionResponse
  | acknowledgedResponse => Into.acknowledgedResponse
  | handshakerRequest => Into.handshakerRequest
  | handshakerResponse => Into.handshakerResponse
  | serviceHandshakeResponse => Into.serviceHandshakeResponse
  | registerRestActionsRequest => Into.registerRestActionsRequest
  | extensionTransportRequest => Into.extensionTransportRequest
  | extensionRestRequest => Into.extensionRestRequest
  | extensionRestResponse => Into.extensionRestResponse
  | restExecuteOnExtensionResponse => Into.restExecuteOnExtensionResponse
  | integerParser => Into.intParser readInt
  | longParser => Into.intParser readLong
  | floatParser => Into.floatParser readFloat
  | doubleParser => Into.floatParser readDouble
  | timeParser => Into.timeParser
  | sizeParser => Into.sizeParser
  | regexValidator => Into.regexValidator
  | byteSizeValue => Into.byteSizeValue

/-- The attributes that the class puts on the wire. -/
def wire : Readable → List String
  | tcpHeader => ["prefix", "size", "request_id", "status", "version", "variable_header_size"]
  | threadContext => ["request_headers", "response_headers"]
  | taskId => ["node_id", "id"]
  | transportRequest => ["parent_task_id"]
  | transportAddress => ["address", "host_name", "port"]
  | discoveryNode => ["node_name", "node_id", "ephemeral_id", "host_name", "host_address", "address", "attributes", "roles", "version"]
  | extensionDependency => ["unique_id", "version"]
  | discoveryExtensionNode => ["node_name", "node_id", "ephemeral_id", "host_name", "host_address", "address", "attributes", "roles",
      "version", "minimum_compatible_version", "dependencies"]
  | initializeExtensionRequest => ["parent_task_id", "source_node", "extension"]
  | initializeExtensionResponse => ["name", "implemented_interfaces"]
  | acknowledgedResponse => ["status"]
  | handshakerRequest => ["parent_task_id", "version"]
  | handshakerResponse => ["version"]
  | serviceHandshakeResponse => ["discovery_node", "cluster_name", "version"]
  | registerRestActionsRequest => ["parent_task_id", "rra"]
  | extensionTransportRequest => ["parent_task_id", "er"]
  | extensionRestRequest => ["parent_task_id", "method", "uri", "path", "params", "headers", "media_type", "_content",
      "principal_identifier_token", "http_version"]
  | extensionRestResponse => ["status", "content", "content_type", "headers", "consumed_params", "content_consumed"]
  | restExecuteOnExtensionResponse => ["status", "content_type", "content", "headers", "consumed_params", "content_consumed"]
  | integerParser | longParser | floatParser | doubleParser => ["min_value", "max_value", "key", "is_filtered"]
  | timeParser => ["key", "min_value", "max_value", "is_filtered"]
  | sizeParser => ["min_value", "max_value", "key"]
  | regexValidator => ["regex", "is_matching"]
  | byteSizeValue => ["size", "unit"]

end Readable

/-- The attributes of a value, as the code names them. -/
def TcpHeader.attributes (h : TcpHeader) : List Attr :=
  [.bytes h.marker, .int h.size, .int h.request_id, .int h.status,
    (match h.version with | .obj v => .version v | .none => .none | .int n => .int n), .int h.variable_header_size]
def ThreadContext.attributes (c : ThreadContext) : List Attr := [.dict c.request_headers, .listDict c.response_headers]
def TaskId.attributes (t : TaskId) : List Attr := [.str t.node_id, match t.id with | some i => .int i | none => .none]
def TransportAddress.attributes (a : TransportAddress) : List Attr := [.ip a.address, .str a.host_name, .int a.port]
def DiscoveryNode.attributes' (n : DiscoveryNode) : List Attr :=
  [.str n.node_name, .str n.node_id, .str n.ephemeral_id, .str n.host_name, .str n.host_address, .address n.address,
    .dict n.attributes, .roles n.roles, .version n.version]
def ExtensionRestRequest.attributes (r : ExtensionRestRequest) : List Attr :=
  [.task r.parent_task_id, (match r.method with | some m => .method m | none => .none), .str r.uri, .str r.path, .dict r.params,
    .listDict r.headers, .str r.media_type, .bytes r.content_, .str r.principal_identifier_token,
    (match r.http_version with | some v => .http v | none => .none)]
def statusAttr : Option RestStatus → Attr
  | some s => .status s
  | none => .none
def ExtensionRestResponse.attributes (r : ExtensionRestResponse) : List Attr :=
  [statusAttr r.status, .bytes r.content, .str r.content_type, .listDict r.headers, .strs r.consumed_params, .bool r.content_consumed]
def RestExecuteOnExtensionResponse.attributes (r : RestExecuteOnExtensionResponse) : List Attr :=
  [statusAttr r.status, .str r.content_type, .bytes r.content, .listDict r.headers, .strs r.consumed_params, .bool r.content_consumed]
def IntParser.attributes (p : IntParser) : List Attr := [.int p.min_value, .int p.max_value, .str p.key, .bool p.is_filtered]
def FloatParser.attributes (p : FloatParser) : List Attr := [.f64 p.min_value, .f64 p.max_value, .str p.key, .bool p.is_filtered]

/-- What the bytes say, by the models of `Model/Header.lean`, `Model/Messages.lean`, `Model/Rest.lean`, `Model/Protobuf.lean` and
`Model/Setting.lean`: the values of the attributes in `wire`, for a newly made object. -/
def Readable.said : Readable → Reader (List Attr)
  | .tcpHeader => TcpHeader.attributes <$> TcpHeader.readFrom
  | .threadContext => ThreadContext.attributes <$> ThreadContext.readFrom
  | .taskId => TaskId.attributes <$> TaskId.readFrom
  | .transportRequest => (fun m => [.task m.parent_task_id]) <$> ServiceHandshakeRequest.readFrom
  | .transportAddress => TransportAddress.attributes <$> TransportAddress.readFrom
  | .discoveryNode => DiscoveryNode.attributes' <$> DiscoveryNode.readFrom
  | .extensionDependency => (fun m => [.str m.unique_id, .version m.version]) <$> ExtensionDependency.readFrom
  | .discoveryExtensionNode => (fun n => n.toDiscoveryNode.attributes' ++ [.version n.minimum_compatible_version, .deps n.dependencies]) <$>
      DiscoveryExtensionNode.readFrom
  | .initializeExtensionRequest => (fun m => [.task m.parent_task_id, .node m.source_node, .extNode m.extension]) <$>
      InitializeExtensionRequest.readFrom
  | .initializeExtensionResponse => (fun m => [.str m.name, .strs m.implemented_interfaces]) <$> InitializeExtensionResponse.readFrom
  | .acknowledgedResponse => (fun m => [.bool m.status]) <$> AcknowledgedResponse.readFrom
  | .handshakerRequest => (fun m => [.task m.parent_task_id, match m.version with | some v => .version v | none => .none]) <$>
      HandshakerRequest.readFrom
  | .handshakerResponse => (fun m => [.version m.version]) <$> HandshakerResponse.readFrom
  | .serviceHandshakeResponse => (fun m => [match m.discovery_node with | some n => .node n | none => .none, .str m.cluster_name,
      .version m.version]) <$> ServiceHandshakeResponse.readFrom
  | .registerRestActionsRequest => (fun m => [.task m.parent_task_id, .actions m.rra]) <$> RegisterRestActionsRequest.readFrom
  | .extensionTransportRequest => (fun m => [.task m.parent_task_id, .request m.er]) <$> ExtensionTransportRequest.readFrom
  | .extensionRestRequest => ExtensionRestRequest.attributes <$> ExtensionRestRequest.readFrom {}
  | .extensionRestResponse => ExtensionRestResponse.attributes <$> ExtensionRestResponse.readFrom
  | .restExecuteOnExtensionResponse => RestExecuteOnExtensionResponse.attributes <$> RestExecuteOnExtensionResponse.readFrom
  | .integerParser => IntParser.attributes <$> IntParser.readFrom
  | .longParser => IntParser.attributes <$> IntParser.readLongFrom
  | .floatParser => FloatParser.attributes <$> FloatParser.readFloatFrom
  | .doubleParser => FloatParser.attributes <$> FloatParser.readDoubleFrom
  | .timeParser => (fun p => [.str p.key, .time p.min_value, .time p.max_value, .bool p.is_filtered]) <$> TimeParser.readFrom
  | .sizeParser => (fun p => [.size p.min_value, .size p.max_value, .str p.key]) <$> SizeParser.readFrom
  | .regexValidator => (fun v => [.str v.regex, .bool v.is_matching]) <$> RegexValidator.readFrom
  | .byteSizeValue => (fun v => [.int v.size, .unit v.unit]) <$> readByteSizeValue

end Verif
