import Verif.Conformance.StreamOutput
import Verif.Model.Display
import Verif.Model.Protobuf
import Verif.Model.Settings
/-!
# The project's own unit tests, on the model: tests/transport

Tests of the model, not claims (see `Conformance/StreamInput.lean`).  Among them are four captures of traffic of
a real OpenSearch node (tests/transport/data): the model reads them and writes back the same bytes.
-/

namespace Verif
open Py StreamInput StreamOutput

/-- What the printed texts depend on, as in CPython for the texts below. -/
def shownAscii : Shown := ⟨ieeeDiv, fun c => 32 ≤ c.toNat && c.toNat < 127, ⟨fun l => l, fun l => .refl l⟩, fun _ => []⟩

/-- A set iterated in the order it is given in. -/
def givenOrder : HashOrder := ⟨fun l => l, fun l => .refl l⟩

/-! ## test_version.py -/

-- test_2_10_0_99
example : (Version.new 2100099).id = 136317827 ∧ (Version.new 2100099).major ieeeDiv = 2 ∧
    (Version.new 2100099).minor ieeeDiv = 10 ∧ (Version.new 2100099).revision ieeeDiv = 0 ∧
    (Version.new 2100099).build = 99 ∧ (Version.new 2100099).str ieeeDiv = "2.10.0.99" ∧
    writes (Version.new 2100099).toBytes = some [0x08, 0x20, 0x0b, 0x83] := by decide +kernel
-- test_2_10_0_99_data
example : Version.fromBytes [0x08, 0x20, 0x0b, 0x83] = Version.new 2100099 := by decide +kernel
-- test_empty
example : (Version.new 0).id = Version.MASK ∧ (Version.new 0).major ieeeDiv = 0 ∧ (Version.new 0).minor ieeeDiv = 0 ∧
    (Version.new 0).revision ieeeDiv = 0 ∧ (Version.new 0).build = 0 ∧ (Version.new 0).str ieeeDiv = "0.0.0.0" ∧
    writes (Version.new 0).toBytes = some [0x08, 0x00, 0x00, 0x00] := by decide +kernel
-- test_read_version (test_stream_input.py)
example : (readsFirst readVersion [0x83, 0x97, 0x80, 0x41]).map (·.str ieeeDiv) = .ok "2.10.0.99" := by decide +kernel

/-! ## test_task_id.py, test_transport_request.py -/

example : writes (TaskId.writeTo ⟨"test", some 42⟩) = some [0x04, 0x74, 0x65, 0x73, 0x74, 0x00, 0x00, 0x00, 0x00,
    0x00, 0x00, 0x00, 0x2a] ∧
    readsFirst TaskId.readFrom [0x04, 0x74, 0x65, 0x73, 0x74, 0x00, 0x00, 0x00, 0x00, 0x00, 0x00, 0x00,
    0x2a] = .ok ⟨"test", some 42⟩ ∧
    TaskId.str ⟨"test", some 42⟩ = "node=test, id=42" := by decide +kernel
example : writes (TaskId.writeTo {}) = some [0x00] ∧ TaskId.str {} = "node=, id=None" := by decide +kernel
example : TaskId.readFrom [0x04, 0x74, 0x65, 0x73, 0x74, 0x00, 0x00, 0x00, 0x00, 0x00, 0x00, 0x00, 0x2a, 0x01,
    0x02, 0x03] =
    .ok (⟨"test", some 42⟩, [0x01, 0x02, 0x03]) := by decide +kernel

/-! ## test_thread_context_struct.py -/

example : writes (ThreadContext.writeTo givenOrder ⟨[("foo", "bar")], [("baz", ["qux", "quux"])]⟩) =
    some [0x01, 0x03, 0x66, 0x6f, 0x6f, 0x03, 0x62, 0x61, 0x72, 0x01, 0x03, 0x62, 0x61, 0x7a, 0x02, 0x03, 0x71,
    0x75, 0x78, 0x04, 0x71, 0x75, 0x75, 0x78] := by decide +kernel
example : readsFirst ThreadContext.readFrom [0x01, 0x03, 0x66, 0x6f, 0x6f, 0x03, 0x62, 0x61, 0x72, 0x01, 0x03, 0x62,
    0x61, 0x7a, 0x02, 0x03, 0x71, 0x75, 0x78, 0x04, 0x71, 0x75, 0x75, 0x78] =
    .ok ⟨[("foo", "bar")], [("baz", ["qux", "quux"])]⟩ := by decide +kernel
example : writes (ThreadContext.writeTo givenOrder {}) = some [0x00, 0x00] ∧
    readsFirst ThreadContext.readFrom [0x00, 0x00] = .ok {} := by decide +kernel
example : ThreadContext.size {} = 2 ∧ ThreadContext.size ⟨[("foo", "bar")], []⟩ = 10 ∧
    ThreadContext.size ⟨[("foo", "bar")], [("baz", ["qux", "quux"])]⟩ = 24 := by decide +kernel

/-! ## test_tcp_header.py -/

-- test_tcp_header
example : let h := (TcpHeader.new (.obj (Version.new 3000099)) 0 (some 42) 1).1
    h.marker = [0x45, 0x53] ∧ h.request_id = 42 ∧ h.isRequest = true ∧ h.isResponse = false ∧ h.isError = false ∧
    h.isCompress = false ∧ h.isHandshake = false ∧ h.size = TcpHeader.MESSAGE_SIZE ∧ h.variable_header_size = 0 ∧
    h.str shownAscii = "prefix=b'ES', version=3.0.0.99, type=['request'], message=17 byte(s), id=42" := by decide +kernel
example : let h := (TcpHeader.new (.obj (Version.new 3000099)) 0 (some 42) 1).1
    let h1 := h.setResponse true
    let h2 := h1.setRequest true
    let h3 := h2.setError true
    let h4 := h3.setCompress true
    let h5 := h4.setHandshake true
    h1.isRequest = false ∧ h1.isResponse = true ∧ "response" ∈ h1.statuses ∧
    h2.isRequest = true ∧ h2.isResponse = false ∧ "request" ∈ h2.statuses ∧
    h3.isError = true ∧ "error" ∈ h3.statuses ∧ h4.isCompress = true ∧ "compressed" ∈ h4.statuses ∧
    h5.isHandshake = true ∧ "handshake" ∈ h5.statuses := by decide +kernel
-- test_tcp_header_stream
example : let h := (TcpHeader.new (.obj (Version.new 3000099)) STATUS_HANDSHAKE (some 2) 1).1
    h.writeTo.out.length = 23 ∧ readsFirst TcpHeader.readFrom h.writeTo.out = .ok h ∧
    h.marker = [0x45, 0x53] ∧ h.request_id = 2 ∧ h.isHandshake = true ∧ h.size = 17 ∧ h.variable_header_size = 0 := by
  decide +kernel
-- test_read_write, tests/transport/data/tcp_header.txt
example : let data := [0x45, 0x53, 0x00, 0x00, 0x00, 0x31, 0x00, 0x00, 0x00, 0x00, 0x00, 0x00, 0x00, 0x08, 0x08,
    0x08, 0x20, 0x0b, 0x83, 0x00, 0x00, 0x00, 0x1a]
    ∃ h, readsFirst TcpHeader.readFrom data = .ok h ∧ h.marker = [0x45, 0x53] ∧ h.request_id = 8 ∧ h.isHandshake = true ∧
      h.version = .obj ⟨136317827⟩ ∧ h.size = 49 ∧ h.variable_header_size = 26 ∧ writes h.writeTo = some data :=
  ⟨_, rfl, by decide +kernel⟩
-- test_request_id, test_auto_increment_id
example : let (h1, ids1) := TcpHeader.new .none 0 none 7
    let (h2, ids2) := TcpHeader.new .none 0 none ids1
    let (h, ids3) := TcpHeader.new .none 0 (some 42) ids2
    let (h3, _) := TcpHeader.new .none 0 none ids3
    0 < h1.request_id ∧ h1.request_id + 1 = h2.request_id ∧ h.request_id = 42 ∧ h2.request_id + 1 = h3.request_id := by
  decide +kernel

/-! ## test_outbound_message.py, test_network_message.py -/

/-- Whether a constructor succeeds with an object with this property. -/
def made {α : Type} (x : Except Err α × Nat) (P : α → Bool) : Bool := match x.1 with | .ok a => P a | .error _ => false

-- test_outbound_message
example : made (OutboundMessage.new none (.obj (Version.new 2100099)) STATUS_REQRES (some 42) none 1) (fun om =>
    om.ctx = {} ∧ om.tcp_header.request_id = 42 ∧ om.tcp_header.version = .obj ⟨136317827⟩ ∧
    om.tcp_header.isRequest = false ∧ om.tcp_header.isResponse = true ∧ om.tcp_header.isError = false ∧
    om.tcp_header.isCompress = false ∧ om.tcp_header.isHandshake = false) = true := by decide +kernel
-- test_outbound_message_stream; a `TransportRequest()` is one byte, replaced by the bytes assigned
example : made (OutboundMessage.new none (.obj (Version.new 3000099)) STATUS_HANDSHAKE (some 2)
      (some (TaskId.writeTo {})) 1) (fun om =>
    let om := (om.setVariableBytes [1, 2, 3]).setMessageBytes [4, 5, 6, 7]
    let out := (om.writeTo givenOrder).out
    out.length = om.tcp_header.size + 6 ∧
    made (OutboundMessage.new none .none STATUS_REQRES none none 1) (fun blank =>
      match readsFirst (blank.readFrom none) out with
      | .ok r => r.tcp_header.request_id = 2 ∧ r.tcp_header.isHandshake = true ∧ r.variable_bytes = om.variable_bytes ∧
        r.tcp_header.size = out.length - 6 ∧ r.tcp_header.variable_header_size = 5 ∧
        r.tcp_header.size + 6 - 23 = r.tcp_header.variable_header_size + 4
      | .error _ => false)) = true := by decide +kernel
-- test_outbound_message_variable_bytes
example : made (OutboundMessage.new none .none STATUS_REQRES none none 1) (fun om =>
    let om1 := om.setVariableBytes [1, 2, 3]
    let om2 := om1.setVariableBytes [1, 2, 3, 4]
    om.tcp_header.size = 19 ∧ om.tcp_header.variable_header_size = om.ctx.size ∧
    om1.variable_bytes = some [1, 2, 3] ∧ om1.tcp_header.size = 19 + 3 ∧
    om1.tcp_header.variable_header_size = om.ctx.size + 3 ∧
    om2.variable_bytes = some [1, 2, 3, 4] ∧ om2.tcp_header.size = 19 + 4 ∧
    om2.tcp_header.variable_header_size = om.ctx.size + 4) = true := by decide +kernel
-- test_outbound_message_message_bytes
example : made (OutboundMessage.new none .none STATUS_REQRES none none 1) (fun om =>
    let om1 := om.setMessageBytes [1, 2, 3]
    let om2 := om1.setMessageBytes [1, 2, 3, 4]
    om.tcp_header.size = 19 ∧ om1.tcp_header.size = 19 + 3 ∧ om1.message_bytes = some [1, 2, 3] ∧
    om2.tcp_header.size = 19 + 4 ∧ om2.message_bytes = some [1, 2, 3, 4]) = true := by decide +kernel

/-! ## test_outbound_message_request.py -/

-- test_outbound_message_request
example : made (OutboundRequest.new none [] none (.obj (Version.new 2100099)) "" (some 42) false false 1) (fun om =>
    om.ctx = {} ∧ om.features = [] ∧ om.action = "" ∧ om.tcp_header.request_id = 42 ∧
    om.tcp_header.version = .obj ⟨136317827⟩ ∧ om.tcp_header.isRequest = true ∧ om.tcp_header.isResponse = false ∧
    om.tcp_header.isError = false ∧ om.tcp_header.isCompress = false ∧ om.tcp_header.isHandshake = false) = true := by
  decide +kernel
-- test_custom_outbound_message_request
example : made (OutboundRequest.new none ["foo", "bar"] none .none "internal:test" none true true 1) (fun om =>
    om.features = ["foo", "bar"] ∧ om.action = "internal:test" ∧ om.tcp_header.isCompress = true ∧
    om.tcp_header.isHandshake = true) = true := by decide +kernel
-- test_outbound_message_request_stream
example : made (OutboundRequest.new none ["foo", "bar"] (some (TaskId.writeTo {} ++ writeString "test"))
      (.obj (Version.new 3000099)) "internal:test/handshake" (some 2) true false 1) (fun om =>
    let out := (om.writeTo givenOrder).out
    out = [0x45, 0x53, 0x00, 0x00, 0x00, 0x3a, 0x00, 0x00, 0x00, 0x00, 0x00, 0x00, 0x00, 0x02, 0x08, 0x08, 0x2d,
    0xc7, 0x23, 0x00, 0x00, 0x00, 0x23, 0x00, 0x00, 0x02, 0x03, 0x66, 0x6f, 0x6f, 0x03, 0x62, 0x61, 0x72, 0x17,
    0x69, 0x6e, 0x74, 0x65, 0x72, 0x6e, 0x61, 0x6c, 0x3a, 0x74, 0x65, 0x73, 0x74, 0x2f, 0x68, 0x61, 0x6e, 0x64,
    0x73, 0x68, 0x61, 0x6b, 0x65, 0x00, 0x04, 0x74, 0x65, 0x73, 0x74] ∧
    out.length = om.tcp_header.size + 6 ∧
    made (OutboundRequest.new none [] none .none "" none false false 1) (fun blank =>
      (match readsFirst (blank.readFrom none) out with
      | .ok r => r.tcp_header.request_id = 2 ∧ r.tcp_header.isHandshake = true ∧
        r.tcp_header.size = out.length - 6 ∧ r.tcp_header.variable_header_size = 2 + 9 + 24 ∧
        r.tcp_header.variable_header_size = r.tcp_header.size - 6 + 6 - 23
      | .error _ => false) &&
      match readsFirst (do let h ← TcpHeader.readFrom; blank.readFrom (some h)) out with
      | .ok r => r.tcp_header.request_id = 2 ∧ r.tcp_header.isHandshake = true ∧ r.features = ["foo", "bar"] ∧
        r.action = "internal:test/handshake" ∧ r.tcp_header.size = out.length - 6 ∧
        r.tcp_header.variable_header_size = 2 + 9 + 24
      | .error _ => false)) = true := by decide +kernel

/-! ## test_outbound_message_response.py -/

-- test_outbound_message_response
example : made (OutboundResponse.new none [] none (.obj (Version.new 2100099)) (some 42) false false 1) (fun om =>
    om.ctx = {} ∧ om.features = [] ∧ om.tcp_header.request_id = 42 ∧ om.tcp_header.version = .obj ⟨136317827⟩ ∧
    om.tcp_header.isRequest = false ∧ om.tcp_header.isResponse = true ∧ om.tcp_header.isError = false ∧
    om.tcp_header.isCompress = false ∧ om.tcp_header.isHandshake = false) = true := by decide +kernel
-- test_custom_outbound_message_response
example : made (OutboundResponse.new none ["foo", "bar"] none .none none true true 1) (fun om =>
    om.features = ["foo", "bar"] ∧ om.tcp_header.isCompress = true ∧ om.tcp_header.isHandshake = true) = true := by
  decide +kernel
-- test_outbound_message_response_stream
example : made (OutboundResponse.new none ["foo", "bar"] (some (writeString "test"))
      (.obj (Version.new 3000099)) (some 2) true false 1) (fun om =>
    let out := (om.writeTo givenOrder).out
    out = [0x45, 0x53, 0x00, 0x00, 0x00, 0x18, 0x00, 0x00, 0x00, 0x00, 0x00, 0x00, 0x00, 0x02, 0x09, 0x08, 0x2d,
    0xc7, 0x23, 0x00, 0x00, 0x00, 0x02, 0x00, 0x00, 0x04, 0x74, 0x65, 0x73, 0x74] ∧
    out.length = om.tcp_header.size + 6 ∧
    made (OutboundResponse.new none [] none .none none false false 1) (fun blank =>
      match readsFirst (blank.readFrom none) out with
      | .ok r => r.tcp_header.request_id = 2 ∧ r.tcp_header.isHandshake = true ∧
        r.tcp_header.size = out.length - 6 ∧ r.tcp_header.variable_header_size = 2 ∧
        r.tcp_header.variable_header_size = r.tcp_header.size - 5 + 6 - 23
      | .error _ => false)) = true := by decide +kernel
-- test_outbound_message_response_with_init
example : made (OutboundResponse.new none ["foo", "bar"]
      (some (InitializeExtensionResponse.writeTo ⟨"hello-world", ["Foo", "Bar"]⟩))
      (.obj (Version.new 3000099)) (some 2) true false 1) (fun om =>
    made (OutboundResponse.new none [] none .none none false false 1) (fun blank =>
      match readsFirst (blank.readFrom none) (om.writeTo givenOrder).out with
      | .ok r => r.tcp_header.request_id = om.tcp_header.request_id ∧ r.tcp_header.isHandshake = om.tcp_header.isHandshake
      | .error _ => false)) = true := by decide +kernel

/-! ## test_transport_address.py -/

-- test_address_no_host
example : let ta := TransportAddress.new 16909060 1234 none
    dotted ta.address = "1.2.3.4" ∧ ta.host_name = "1.2.3.4" ∧
    writes ta.writeTo = some [0x04, 0x01, 0x02, 0x03, 0x04, 0x07, 0x31, 0x2e, 0x32, 0x2e, 0x33, 0x2e, 0x34, 0x00,
    0x00, 0x04, 0xd2] := by decide +kernel
-- test_address_with_host
example : let ta := TransportAddress.new 16909060 1234 (some "host.name")
    ta.host_name = "host.name" ∧ writes ta.writeTo = some [0x04, 0x01, 0x02, 0x03, 0x04, 0x09, 0x68, 0x6f, 0x73,
    0x74, 0x2e, 0x6e, 0x61, 0x6d, 0x65, 0x00, 0x00, 0x04, 0xd2] ∧
    readsFirst TransportAddress.readFrom [0x04, 0x01, 0x02, 0x03, 0x04, 0x09, 0x68, 0x6f, 0x73, 0x74, 0x2e, 0x6e, 0x61,
    0x6d, 0x65, 0x00, 0x00, 0x04, 0xd2] = .ok ta := by decide +kernel
-- test_address_invalid
example : raises TransportAddress.readFrom [0x05, 0x01, 0x02, 0x03, 0x04, 0x05, 0x09, 0x68, 0x6f, 0x73, 0x74,
    0x2e, 0x6e, 0x61, 0x6d, 0x65, 0x00, 0x00, 0x04, 0xd2] = true := by
  decide +kernel

/-! ## Nodes -/

/-- 127.0.0.1, 1.2.3.4 and 5.6.7.8. -/
def localhost : TransportAddress := TransportAddress.new 0x7f000001 0 none
def fooBar : TransportAddress := TransportAddress.new 0x01020304 1234 (some "foo.bar")
def barBaz : TransportAddress := TransportAddress.new 0x05060708 5678 (some "bar.baz")

-- test_dicovery_node.py: test_discovery_node
example : let dn := DiscoveryNode.new "" "id" none none none localhost [] [] none "0123456789012345678901"
    dn.node_name = "" ∧ dn.node_id = "id" ∧ dn.ephemeral_id.length = 22 ∧ dn.host_name = "127.0.0.1" ∧
    dn.host_address = "127.0.0.1" ∧ dotted dn.address.address = "127.0.0.1" ∧ dn.address.port = 0 ∧ dn.attributes = [] ∧
    dn.roles = [] ∧ dn.version = Version.new Version.CURRENT := by decide +kernel
-- test_discovery_node_read_write
example : let dn := (DiscoveryNode.new "name" "id" none none none fooBar [("foo", "bar"), ("baz", "qux")]
      [DATA_ROLE, INGEST_ROLE] none "0123456789012345678901")
    dn.node_name = "name" ∧ dn.node_id = "id" ∧ dn.ephemeral_id.length = 22 ∧ dn.host_name = "foo.bar" ∧
    dn.host_address = "1.2.3.4" ∧ dotted dn.address.address = "1.2.3.4" ∧ dn.address.port = 1234 ∧
    dn.attributes = [("foo", "bar"), ("baz", "qux")] ∧ dn.roles = [DATA_ROLE, INGEST_ROLE] ∧
    dn.version = Version.new Version.CURRENT ∧ readsFirst DiscoveryNode.readFrom dn.writeTo.out = .ok dn := by decide +kernel
-- test_dicovery_node_role.py
example : roleDict.get? "data" = some DATA_ROLE ∧ roleDict.get? "ingest" = some INGEST_ROLE ∧
    roleDict.get? "cluster_manager" = some CLUSTER_MANAGER_ROLE ∧
    roleDict.get? "remote_cluster_client" = some REMOTE_CLUSTER_CLIENT_ROLE ∧
    roleDict.get? "search" = some SEARCH_ROLE := by decide +kernel
-- test_extension_dependency.py
example : let ed : ExtensionDependency := ⟨"foo", Version.new 1000099⟩
    ed.version.str ieeeDiv = "1.0.0.99" ∧ readsFirst ExtensionDependency.readFrom ed.writeTo.out = .ok ed := by decide +kernel
-- test_dicovery_extension_node.py
example : let den : DiscoveryExtensionNode :=
      { DiscoveryNode.new "" "id" none none none fooBar [] [] (some (Version.new 0)) "0123456789012345678901" with
        minimum_compatible_version := Version.new 1000100
        dependencies := [⟨"foo", Version.new 1010100⟩, ⟨"bar", Version.new 1020000⟩] }
    den.minimum_compatible_version.str ieeeDiv = "1.0.1.0" ∧ readsFirst DiscoveryExtensionNode.readFrom den.writeTo.out = .ok den ∧
    "id=id, version=0.0.0.0, name=, host=foo.bar, addr=1.2.3.4".toList <+: (den.str shownAscii false).toList := by
  decide +kernel
-- test_initialize_extension_request.py: test_initialize_extension_request
example : let ier : InitializeExtensionRequest := ⟨{},
      DiscoveryNode.new "" "opensearch_node" none none none barBaz [] [] none "0123456789012345678901",
      { DiscoveryNode.new "" "extension_node" none none none fooBar [] [] (some (Version.new 0)) "0123456789012345678901" with
        minimum_compatible_version := Version.new 0
        dependencies := [] }⟩
    readsFirst InitializeExtensionRequest.readFrom ier.writeTo.out = .ok ier ∧
    "opensearch_node".toList <:+: (ier.str shownAscii).toList ∧
    "extension_node".toList <:+: (ier.str shownAscii).toList := by decide +kernel

/-! ## Messages -/

-- test_initialize_extension_response.py
example : let ier : InitializeExtensionResponse := ⟨"test", ["Extension", "ActionExtension"]⟩
    ier.str shownAscii = "name=test, interfaces=['Extension', 'ActionExtension']" ∧
    readsFirst InitializeExtensionResponse.readFrom ier.writeTo.out = .ok ier := by decide +kernel
-- test_acknowledged_response.py
example : AcknowledgedResponse.str {} = "status=False" ∧ AcknowledgedResponse.str ⟨true⟩ = "status=True" ∧
    readsFirst AcknowledgedResponse.readFrom (AcknowledgedResponse.writeTo ⟨true⟩).out = .ok ⟨true⟩ := by decide +kernel
-- test_transport_handshaker_handshake_request.py
example : let m : HandshakerRequest := ⟨{}, some (Version.new 2100099)⟩
    writes m.writeTo = some [0x00, 0x04, 0x83, 0x97, 0x80, 0x41] ∧ readsFirst HandshakerRequest.readFrom m.writeTo.out = .ok m ∧
    m.str shownAscii = "version=2.10.0.99" := by decide +kernel
-- test_transport_handshaker_handshake_response.py
example : let m : HandshakerResponse := ⟨Version.new 2100099⟩
    writes m.writeTo = some [0x83, 0x97, 0x80, 0x41] ∧ readsFirst HandshakerResponse.readFrom m.writeTo.out = .ok m ∧
    m.str shownAscii = "version=2.10.0.99" := by decide +kernel
-- test_transport_service_handshake_request.py
example : writes (ServiceHandshakeRequest.writeTo ⟨{}⟩) = some [0x00] ∧
    readsFirst ServiceHandshakeRequest.readFrom [0x00] = .ok ⟨{}⟩ := by decide +kernel
-- test_transport_service_handshake_response.py
example : let dn := DiscoveryNode.new "" "id" none none none localhost [] [] none "0123456789012345678901"
    let m : ServiceHandshakeResponse := ⟨some dn, "hello-world", Version.new 2100099⟩
    readsFirst ServiceHandshakeResponse.readFrom m.writeTo.out = .ok m ∧
    (dn.str shownAscii false).toList <:+: (m.str shownAscii false).toList ∧
    "cluster name=hello-world, version=2.10.0.99".toList <:+: (m.str shownAscii false).toList ∧
    readsFirst ServiceHandshakeResponse.readFrom ({ m with discovery_node := none }).writeTo.out =
      .ok { m with discovery_node := none } := by decide +kernel

/-! ## Captured traffic -/

/-- Read a request and then its message, and write both back (`test_read_write*`). -/
def rewrites {α : Type} (read : Reader α) (write : α → W) (data : Bytes) : Option (OutboundRequest × α × Bytes) :=
  match OutboundRequest.new none [] none .none "" none false false 1 with
  | (.ok blank, _) =>
    match readsFirst (do let r ← blank.readFrom none; let m ← read; return (r, m)) data with
    | .ok (r, m) => some (r, m, (r.writeTo givenOrder ++ write m).out)
    | .error _ => none
  | (.error _, _) => none

/-- tests/transport/data/tcp_handshake.txt -/
def tcpHandshakeTrace : Bytes := [0x45, 0x53, 0x00, 0x00, 0x00, 0x31, 0x00, 0x00, 0x00, 0x00, 0x00, 0x00, 0x00,
    0x08, 0x08, 0x08, 0x20, 0x0b, 0x83, 0x00, 0x00, 0x00, 0x1a, 0x00, 0x00, 0x00, 0x16, 0x69, 0x6e, 0x74, 0x65,
    0x72, 0x6e, 0x61, 0x6c, 0x3a, 0x74, 0x63, 0x70, 0x2f, 0x68, 0x61, 0x6e, 0x64, 0x73, 0x68, 0x61, 0x6b, 0x65,
    0x00, 0x04, 0xa3, 0x8e, 0xb7, 0x41]
example : (rewrites HandshakerRequest.readFrom HandshakerRequest.writeTo tcpHandshakeTrace).map
    (fun x => (x.2.1.str shownAscii, x.2.2)) = some ("version=3.0.0.99", tcpHandshakeTrace) := by decide +kernel

/-- tests/transport/data/transport_service_handshake_request.txt -/
def serviceHandshakeTrace : Bytes := [0x45, 0x53, 0x00, 0x00, 0x00, 0x32, 0x00, 0x00, 0x00, 0x00, 0x00, 0x00,
    0x00, 0x09, 0x00, 0x08, 0x2d, 0xc7, 0x23, 0x00, 0x00, 0x00, 0x20, 0x00, 0x00, 0x00, 0x1c, 0x69, 0x6e, 0x74,
    0x65, 0x72, 0x6e, 0x61, 0x6c, 0x3a, 0x74, 0x72, 0x61, 0x6e, 0x73, 0x70, 0x6f, 0x72, 0x74, 0x2f, 0x68, 0x61,
    0x6e, 0x64, 0x73, 0x68, 0x61, 0x6b, 0x65, 0x00]
example : (rewrites ServiceHandshakeRequest.readFrom ServiceHandshakeRequest.writeTo serviceHandshakeTrace).map (·.2.2) =
    some serviceHandshakeTrace := by decide +kernel

/-- tests/transport/data/initialize_extension_request.txt -/
def initializeTrace : Bytes := [0x45, 0x53, 0x00, 0x00, 0x01, 0xe9, 0x00, 0x00, 0x00, 0x00, 0x00, 0x00, 0x00,
    0x0a, 0x00, 0x08, 0x2d, 0xc7, 0x23, 0x00, 0x00, 0x00, 0x44, 0x01, 0x1c, 0x5f, 0x73, 0x79, 0x73, 0x74, 0x65,
    0x6d, 0x5f, 0x69, 0x6e, 0x64, 0x65, 0x78, 0x5f, 0x61, 0x63, 0x63, 0x65, 0x73, 0x73, 0x5f, 0x61, 0x6c, 0x6c,
    0x6f, 0x77, 0x65, 0x64, 0x05, 0x66, 0x61, 0x6c, 0x73, 0x65, 0x00, 0x00, 0x1d, 0x69, 0x6e, 0x74, 0x65, 0x72,
    0x6e, 0x61, 0x6c, 0x3a, 0x64, 0x69, 0x73, 0x63, 0x6f, 0x76, 0x65, 0x72, 0x79, 0x2f, 0x65, 0x78, 0x74, 0x65,
    0x6e, 0x73, 0x69, 0x6f, 0x6e, 0x73, 0x00, 0x09, 0x72, 0x75, 0x6e, 0x54, 0x61, 0x73, 0x6b, 0x2d, 0x30, 0x16,
    0x31, 0x47, 0x70, 0x4d, 0x31, 0x5a, 0x4e, 0x6d, 0x54, 0x78, 0x4f, 0x74, 0x74, 0x6a, 0x51, 0x68, 0x6b, 0x56,
    0x77, 0x41, 0x36, 0x67, 0x16, 0x57, 0x5a, 0x30, 0x6f, 0x54, 0x59, 0x37, 0x52, 0x52, 0x75, 0x2d, 0x38, 0x61,
    0x70, 0x6c, 0x54, 0x55, 0x76, 0x48, 0x35, 0x63, 0x51, 0x09, 0x31, 0x32, 0x37, 0x2e, 0x30, 0x2e, 0x30, 0x2e,
    0x31, 0x09, 0x31, 0x32, 0x37, 0x2e, 0x30, 0x2e, 0x30, 0x2e, 0x31, 0x04, 0x7f, 0x00, 0x00, 0x01, 0x09, 0x31,
    0x32, 0x37, 0x2e, 0x30, 0x2e, 0x30, 0x2e, 0x31, 0x00, 0x00, 0x24, 0x54, 0x02, 0x08, 0x74, 0x65, 0x73, 0x74,
    0x61, 0x74, 0x74, 0x72, 0x04, 0x74, 0x65, 0x73, 0x74, 0x1f, 0x73, 0x68, 0x61, 0x72, 0x64, 0x5f, 0x69, 0x6e,
    0x64, 0x65, 0x78, 0x69, 0x6e, 0x67, 0x5f, 0x70, 0x72, 0x65, 0x73, 0x73, 0x75, 0x72, 0x65, 0x5f, 0x65, 0x6e,
    0x61, 0x62, 0x6c, 0x65, 0x64, 0x04, 0x74, 0x72, 0x75, 0x65, 0x04, 0x0f, 0x63, 0x6c, 0x75, 0x73, 0x74, 0x65,
    0x72, 0x5f, 0x6d, 0x61, 0x6e, 0x61, 0x67, 0x65, 0x72, 0x01, 0x6d, 0x00, 0x04, 0x64, 0x61, 0x74, 0x61, 0x01,
    0x64, 0x01, 0x06, 0x69, 0x6e, 0x67, 0x65, 0x73, 0x74, 0x01, 0x69, 0x00, 0x15, 0x72, 0x65, 0x6d, 0x6f, 0x74,
    0x65, 0x5f, 0x63, 0x6c, 0x75, 0x73, 0x74, 0x65, 0x72, 0x5f, 0x63, 0x6c, 0x69, 0x65, 0x6e, 0x74, 0x01, 0x72,
    0x00, 0xa3, 0x8e, 0xb7, 0x41, 0x0b, 0x68, 0x65, 0x6c, 0x6c, 0x6f, 0x2d, 0x77, 0x6f, 0x72, 0x6c, 0x64, 0x0b,
    0x68, 0x65, 0x6c, 0x6c, 0x6f, 0x2d, 0x77, 0x6f, 0x72, 0x6c, 0x64, 0x16, 0x50, 0x4f, 0x62, 0x5f, 0x5f, 0x48,
    0x67, 0x65, 0x53, 0x73, 0x79, 0x4c, 0x6d, 0x35, 0x52, 0x55, 0x53, 0x43, 0x78, 0x64, 0x75, 0x67, 0x09, 0x31,
    0x32, 0x37, 0x2e, 0x30, 0x2e, 0x30, 0x2e, 0x31, 0x09, 0x31, 0x32, 0x37, 0x2e, 0x30, 0x2e, 0x30, 0x2e, 0x31,
    0x04, 0x7f, 0x00, 0x00, 0x01, 0x09, 0x31, 0x32, 0x37, 0x2e, 0x30, 0x2e, 0x30, 0x2e, 0x31, 0x00, 0x00, 0x11,
    0x94, 0x00, 0x05, 0x0f, 0x63, 0x6c, 0x75, 0x73, 0x74, 0x65, 0x72, 0x5f, 0x6d, 0x61, 0x6e, 0x61, 0x67, 0x65,
    0x72, 0x01, 0x6d, 0x00, 0x04, 0x64, 0x61, 0x74, 0x61, 0x01, 0x64, 0x01, 0x06, 0x69, 0x6e, 0x67, 0x65, 0x73,
    0x74, 0x01, 0x69, 0x00, 0x15, 0x72, 0x65, 0x6d, 0x6f, 0x74, 0x65, 0x5f, 0x63, 0x6c, 0x75, 0x73, 0x74, 0x65,
    0x72, 0x5f, 0x63, 0x6c, 0x69, 0x65, 0x6e, 0x74, 0x01, 0x72, 0x00, 0x06, 0x73, 0x65, 0x61, 0x72, 0x63, 0x68,
    0x01, 0x73, 0x01, 0xa3, 0x8e, 0xb7, 0x41, 0xa3, 0x8e, 0xb7, 0x41, 0x02, 0x05, 0x74, 0x65, 0x73, 0x74, 0x31,
    0xe3, 0x89, 0xfa, 0x40, 0x05, 0x74, 0x65, 0x73, 0x74, 0x32, 0xa3, 0x8e, 0xb7, 0x41]
example : (rewrites InitializeExtensionRequest.readFrom InitializeExtensionRequest.writeTo initializeTrace).map
    (fun x => (x.2.1.source_node.node_id, x.2.1.extension.node_id, x.2.2)) =
    some ("1GpM1ZNmTxOttjQhkVwA6g", "hello-world", initializeTrace) := by decide +kernel

/-- tests/transport/data/transport_service_handshake_response.txt; read as a plain `OutboundMessage` -/
def serviceResponseTrace : Bytes := [0x45, 0x53, 0x00, 0x00, 0x00, 0xc8, 0x00, 0x00, 0x00, 0x00, 0x00, 0x00, 0x00,
    0x09, 0x01, 0x08, 0x2d, 0xc7, 0x23, 0x00, 0x00, 0x00, 0x02, 0x00, 0x00, 0x01, 0x0b, 0x68, 0x65, 0x6c, 0x6c,
    0x6f, 0x2d, 0x77, 0x6f, 0x72, 0x6c, 0x64, 0x16, 0x6c, 0x46, 0x61, 0x78, 0x69, 0x64, 0x44, 0x74, 0x54, 0x7a,
    0x53, 0x76, 0x31, 0x79, 0x59, 0x6e, 0x4f, 0x65, 0x37, 0x4e, 0x52, 0x41, 0x16, 0x64, 0x6f, 0x36, 0x46, 0x38,
    0x34, 0x5a, 0x31, 0x51, 0x68, 0x4b, 0x4b, 0x41, 0x6f, 0x48, 0x4c, 0x47, 0x30, 0x36, 0x36, 0x4d, 0x77, 0x09,
    0x31, 0x32, 0x37, 0x2e, 0x30, 0x2e, 0x30, 0x2e, 0x31, 0x09, 0x31, 0x32, 0x37, 0x2e, 0x30, 0x2e, 0x30, 0x2e,
    0x31, 0x04, 0x7f, 0x00, 0x00, 0x01, 0x09, 0x31, 0x32, 0x37, 0x2e, 0x30, 0x2e, 0x30, 0x2e, 0x31, 0x00, 0x00,
    0x11, 0x94, 0x00, 0x04, 0x0f, 0x63, 0x6c, 0x75, 0x73, 0x74, 0x65, 0x72, 0x5f, 0x6d, 0x61, 0x6e, 0x61, 0x67,
    0x65, 0x72, 0x01, 0x6d, 0x00, 0x04, 0x64, 0x61, 0x74, 0x61, 0x01, 0x64, 0x01, 0x06, 0x69, 0x6e, 0x67, 0x65,
    0x73, 0x74, 0x01, 0x69, 0x00, 0x15, 0x72, 0x65, 0x6d, 0x6f, 0x74, 0x65, 0x5f, 0x63, 0x6c, 0x75, 0x73, 0x74,
    0x65, 0x72, 0x5f, 0x63, 0x6c, 0x69, 0x65, 0x6e, 0x74, 0x01, 0x72, 0x00, 0xa3, 0x8e, 0xb7, 0x41, 0x0a, 0x6f,
    0x70, 0x65, 0x6e, 0x73, 0x65, 0x61, 0x72, 0x63, 0x68, 0xa3, 0x8e, 0xb7, 0x41]
example : made (OutboundMessage.new none .none STATUS_REQRES none none 1) (fun blank =>
    match readsFirst (do let r ← blank.readFrom none; let m ← ServiceHandshakeResponse.readFrom; return (r, m))
      serviceResponseTrace with
    | .ok (r, m) => m.discovery_node.map (·.node_id) = some "lFaxidDtTzSv1yYnOe7NRA" ∧ m.cluster_name = "opensearch" ∧
      m.version.str ieeeDiv = "3.0.0.99" ∧ (r.writeTo givenOrder ++ m.writeTo).out = serviceResponseTrace
    | .error _ => false) = true := by decide +kernel

end Verif
