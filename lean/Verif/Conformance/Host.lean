import Verif.Conformance.Rest
import Verif.Model.Server
import Verif.Model.Handlers
/-!
# The project's own unit tests, on the model: tests/actions and tests/server

Tests of the model, not claims (see `Conformance/StreamInput.lean`).  The inputs are the captured traffic of
`Conformance/Transport.lean`, and messages written by the model.
-/

namespace Verif
open Py StreamInput StreamOutput

/-- The extension of the tests: it has no routes. -/
def testExt : Ext Unit Unit where
  name := "hello-world"
  interfaces := ["Extension", "ActionExtension"]
  registry := ⟨[], []⟩
  run := fun _ s _ => (s, .error .exception)
  depth := 9

/-- One outcome of the interpreter's choices. -/
def testChoice : Choice where
  ho := givenOrder
  uuid := [0, 1, 2, 3, 4, 5, 6, 7, 8, 9, 10, 11, 12, 13, 14, 15]
  uuid_len := rfl
  roles := [CLUSTER_MANAGER_ROLE, DATA_ROLE, INGEST_ROLE, REMOTE_CLUSTER_CLIENT_ROLE]
  roles_perm := .refl _

/-- The state after these inputs, and what each was answered with. -/
def converse {H : Type} (env : Ext Unit H) (s : Host Unit) : List Bytes → Host Unit × List (Except Err (Option Bytes))
  | [] => (s, [])
  | raw :: raws =>
    let r := onInput env testChoice s raw
    let rest := converse env r.1 raws
    (rest.1, r.2 :: rest.2)

/-- Whether the bytes are a response, followed by a message, with this property. -/
def respondsWith {α : Type} (read : Reader α) (P : OutboundResponse → α → Bool) (x : Except Err (Option Bytes)) : Bool :=
  match x with
  | .ok (some data) =>
    made (OutboundResponse.new none [] none .none none false false 1) fun blank =>
      match readsFirst (do let r ← blank.readFrom none; let m ← read; return (r, m)) data with
      | .ok (r, m) => P r m
      | .error _ => false
  | _ => false

/-- The bytes of a request with this message (`bytes(OutboundMessageRequest(...))`). -/
def requestBytes (version : VerField) (action : String) (message : Option W) : Bytes :=
  match OutboundRequest.new none [] message version action none false false 40 with
  | (.ok r, _) => (r.writeTo givenOrder).out
  | (.error _, _) => []

/-- The bytes of a response with this message. -/
def responseBytes (request_id : Option Int) (message : Option W) (error : Bool) : Bytes :=
  match OutboundResponse.new none [] message (.obj (Version.new 2100099)) request_id false false 40 with
  | (.ok r, _) =>
    ((if error then { r with tcp_header := r.tcp_header.setError true } else r).writeTo givenOrder).out
  | (.error _, _) => []

/-- `Version(Version.MIN_COMPAT)` as read back. -/
def isMinCompat (r : OutboundResponse) : Bool := r.tcp_header.version = .obj (Version.new Version.MIN_COMPAT)

-- tests/actions/test_request_handlers.py: test_register_handlers
example : (serveHandlers testExt testChoice).length = 4 ∧
    ((serveHandlers testExt testChoice).get? "internal:tcp/handshake").map (·.action) = some "internal:tcp/handshake" := by
  decide +kernel
-- test_handle: the captured TCP handshake is answered
-- tests/actions/internal/test_tcp_handshake_request_handler.py: with this version of the SDK
example : respondsWith HandshakerResponse.readFrom (fun r m => isMinCompat r && r.tcp_header.request_id == 8 &&
      r.tcp_header.isHandshake && m.version == Version.new Version.CURRENT)
    (onInput testExt testChoice { ext := () } tcpHandshakeTrace).2 = true ∧
    respondsWith HandshakerResponse.readFrom (fun r m => isMinCompat r && m.version == Version.new Version.CURRENT)
      (onInput testExt testChoice { ext := () } (requestBytes (.obj (Version.new Version.CURRENT)) "internal:tcp/handshake"
        (some (HandshakerRequest.writeTo ⟨{}, Version.new Version.CURRENT⟩)))).2 = true := by decide +kernel
-- tests/actions/internal/test_transport_handshake_request_handler.py
example : respondsWith ServiceHandshakeResponse.readFrom (fun r m => isMinCompat r && m.discovery_node.isSome &&
      m.cluster_name == "" && m.version == Version.new Version.CURRENT)
    (onInput testExt testChoice { ext := () } serviceHandshakeTrace).2 = true ∧
    respondsWith ServiceHandshakeResponse.readFrom (fun r m => isMinCompat r && m.discovery_node.isSome &&
      m.cluster_name == "" && m.version == Version.new Version.CURRENT)
      (onInput testExt testChoice { ext := () } (requestBytes (.obj (Version.new Version.CURRENT)) "internal:transport/handshake"
        (some (ServiceHandshakeRequest.writeTo ⟨{}⟩)))).2 = true := by decide +kernel

-- tests/actions/internal/test_discovery_extensions_request_handler.py, and
-- tests/server/test_async_extension_host.py: test_discovery_extensions_request
example :
    let r := converse testExt { ext := () } [serviceHandshakeTrace, initializeTrace]
    r.2.length = 2 ∧ r.1.init.map (·.tcp_header.request_id) = some 10 ∧ r.1.pending.length = 2 ∧
    (r.2[1]?.map fun x => match x with
      | .ok (some data) =>
        made (OutboundRequest.new none [] none .none "" none false false 1) fun blank =>
          match readsFirst (do let q ← blank.readFrom none; let m ← RegisterRestActionsRequest.readFrom; return (q, m)) data with
          | .ok (q, m) => q.tcp_header.version = .obj (Version.new Version.MIN_COMPAT) ∧
            q.ctx.request_headers = [("_system_index_access_allowed", "false")] ∧ m.rra.identity.map (·.uniqueId) = some "hello-world"
          | .error _ => false
      | _ => false) = some true := by decide +kernel

-- tests/actions/internal/test_action_not_found_request_error_handler.py, tests/actions/internal/test_request_error_handler.py and
-- tests/server/test_async_extension_host.py: test_run_unhandled_request_error
example :
    let r := converse testExt { ext := () } [serviceHandshakeTrace,
      requestBytes (.obj (Version.new 2100099)) "internal:invalid" none]
    r.2.length = 2 ∧ (r.2[1]?.map (respondsWith RestExecuteOnExtensionResponse.readFrom fun q m =>
      isMinCompat q && q.ctx.request_headers.isEmpty && m.status == some .NOT_FOUND && m.content_type == JSON_CONTENT_TYPE &&
      m.headers.isEmpty && m.content == [0x7b, 0x22, 0x65, 0x72, 0x72, 0x6f, 0x72, 0x22, 0x3a, 0x20, 0x22, 0x4e,
    0x6f, 0x20, 0x68, 0x61, 0x6e, 0x64, 0x6c, 0x65, 0x72, 0x20, 0x66, 0x6f, 0x75, 0x6e, 0x64, 0x20, 0x66, 0x6f,
    0x72, 0x20, 0x69, 0x6e, 0x74, 0x65, 0x72, 0x6e, 0x61, 0x6c, 0x3a, 0x69, 0x6e, 0x76, 0x61, 0x6c, 0x69, 0x64,
    0x22, 0x7d])) = some true := by
  decide +kernel

/-- The id of a message on the wire. -/
def sentId : Option (Except Err (Option Bytes)) → Option Int
  | some (.ok (some data)) => (readsFirst TcpHeader.readFrom data).toOption.map (·.request_id)
  | _ => none

-- test_acknowledged_response: after the initialisation, the acknowledgement of the registered id is answered with the request
-- for the settings, and once more with nothing (tests/actions/test_response_handlers.py: test_handle, test_handle_unregistered)
example :
    let r := converse testExt { ext := () } [initializeTrace]
    let ack := responseBytes (sentId r.2[0]?) (some (AcknowledgedResponse.writeTo ⟨true⟩)) false
    let q := converse testExt r.1 [serviceHandshakeTrace, ack, ack]
    r.1.pending.length = 2 ∧ q.1.pending.length = 1 ∧
    (q.2[1]?.map fun x => match x with
      | .ok (some data) =>
        made (OutboundRequest.new none [] none .none "" none false false 1) fun blank =>
          match readsFirst (do let q ← blank.readFrom none; let m ← ExtensionTransportRequest.readFrom; return (q, m)) data with
          | .ok (q, m) => q.tcp_header.version = .obj (Version.new Version.MIN_COMPAT) ∧
            q.ctx.request_headers = [("_system_index_access_allowed", "false")] ∧
            m.er.requestType = RequestType.REQUEST_EXTENSION_ENVIRONMENT_SETTINGS.value
          | .error _ => false
      | _ => false) = some true ∧
    (q.2[2]?.map fun x => match x with | .ok none => true | _ => false) = some true := by decide +kernel
-- tests/actions/internal/test_register_rest_actions_response_handler.py: a refusal is answered with nothing
example :
    let r := converse testExt { ext := () } [initializeTrace]
    (converse testExt r.1 [responseBytes (sentId r.2[0]?) (some (AcknowledgedResponse.writeTo ⟨false⟩)) false]).2 =
      [.ok none] := by decide +kernel
-- tests/actions/internal/test_environment_settings_response_handler.py: after the settings the initialisation is answered
example :
    let r := converse testExt { ext := () } [initializeTrace]
    let ack := responseBytes (sentId r.2[0]?) (some (AcknowledgedResponse.writeTo ⟨true⟩)) false
    let q := converse testExt r.1 [ack]
    let p := converse testExt q.1 [responseBytes (sentId q.2[0]?) (some (Settings.writeTo [("foo", .str "bar")])) false]
    p.1.pending.length = 0 ∧ (p.2[0]?.map (respondsWith InitializeExtensionResponse.readFrom fun q m =>
      isMinCompat q && q.tcp_header.request_id == 10 && m.name == "hello-world" &&
      m.implemented_interfaces == ["Extension", "ActionExtension"])) = some true := by decide +kernel
-- test_error_response: nothing is answered
example :
    let r := converse testExt { ext := () } [serviceHandshakeTrace, responseBytes none none true]
    (r.2[1]?.map fun x => match x with | .ok none => true | _ => false) = some true := by decide +kernel

/-- The extension of tests/actions/internal/test_extensions_rest_request_handler.py, whose handlers are mocked. -/
def mockExt : Ext Unit Unit :=
  { testExt with
    registry := ⟨[("GET /test", ())], ["GET /test test"]⟩
    run := fun _ s _ => (s, .ok (ExtensionRestResponse.new none (some .OK) [0x74, 0x65, 0x73,
    0x74] TEXT_CONTENT_TYPE)) }

-- tests/actions/internal/test_extensions_rest_request_handler.py
example : respondsWith RestExecuteOnExtensionResponse.readFrom (fun r m => isMinCompat r && m.status == some .OK &&
      m.content_type == TEXT_CONTENT_TYPE && m.content == [0x74, 0x65, 0x73, 0x74])
    (onInput mockExt testChoice { ext := () } (requestBytes (.obj (Version.new Version.CURRENT))
      "internal:extensions/restexecuteonextensiontaction"
      (some (ExtensionRestRequest.writeTo { method := some .GET, path := "/test", http_version := some .HTTP_1_1 })))).2 =
    true := by decide +kernel

/-- The sample extension, if it can be built. -/
def helloExt : Ext Unit Unit := match Hello.extension 9 with | .ok e => e | .error _ => testExt

-- samples/hello/tests/test_hello.py
example :
    respondsWith RestExecuteOnExtensionResponse.readFrom (fun _ m => m.status == some .OK &&
      m.content == utf8 "Hello from Python! 👋\n")
      (onInput helloExt testChoice { ext := () } (requestBytes (.obj (Version.new Version.CURRENT))
        "internal:extensions/restexecuteonextensiontaction"
        (some (ExtensionRestRequest.writeTo { method := some .GET, path := "/hello", http_version := some .HTTP_1_1 })))).2 =
      true ∧
    respondsWith RestExecuteOnExtensionResponse.readFrom (fun _ m => m.status == some .OK &&
      m.content == utf8 "Hello Tester! 👋\n")
      (onInput helloExt testChoice { ext := () } (requestBytes (.obj (Version.new Version.CURRENT))
        "internal:extensions/restexecuteonextensiontaction"
        (some (ExtensionRestRequest.writeTo
          { method := some .GET, path := "/hello/Tester", params := [("name", "Tester")], http_version := some .HTTP_1_1 })))).2 = true := by decide +kernel

end Verif
