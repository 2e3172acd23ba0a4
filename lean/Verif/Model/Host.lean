import Verif.Model.Message
import Verif.Model.Protobuf
import Verif.Model.Rest
import Verif.Model.Settings
import Verif.Model.Base64
/-!
# The extension host: server/async_extension_host.py and actions/**

`onInput` is `AsyncExtensionHost.on_input`: it gets the bytes of one socket read and returns the
bytes to send (if any) or the exception it raised.  Everything the code mutates is in `Host`; the
mutations made before an exception stay, as in Python.

Logging has no effect on `on_input`: the logged `__str__` methods of this code do not raise.  What is
logged is in `Model/Log.lean`.
-/

namespace Verif
open Py StreamInput StreamOutput

/-- The extension served by the host: `Extension` / `ActionExtension` (extension.py,
api/action_extension.py).  `run` is what the registered REST handlers do with a request: it may
change the extension's own state `σ`, return a response, or raise. -/
structure Ext (σ H : Type) where
  name : String                                    -- extension.py:17
  interfaces : List String                         -- extension.py:20-24
  registry : Registry H                            -- api/action_extension.py:31
  run : H → σ → ExtensionRestRequest → σ × Except Err ExtensionRestResponse
  /-- The recursion limit available to `read_generic_value`. -/
  depth : Nat

/-- What Python decides while an input is handled: the iteration order of sets, the random UUID, the
order of the set of roles. -/
structure Choice where
  ho : HashOrder
  uuid : Bytes
  uuid_len : uuid.length = 16
  roles : List Role
  roles_perm : roles.Perm [CLUSTER_MANAGER_ROLE, DATA_ROLE, INGEST_ROLE, REMOTE_CLUSTER_CLIENT_ROLE]

/-- A handler waiting in `ResponseHandlers`: `RegisterRestActionsResponseHandler(_, request)` with
the request it will send (actions/internal/register_rest_actions_response_handler.py:21-23), or
`EnvironmentSettingsResponseHandler(handler)`, whose `next_handler` is always the one
`DiscoveryExtensionsRequestHandler` (actions/internal/environment_settings_response_handler.py:21-22,
actions/internal/discovery_extensions_request_handler.py:61). -/
inductive Pending where
  | registerRest (request : OutboundRequest)
  | settings
  deriving DecidableEq, Repr

/-- The mutable state behind `on_input`. -/
structure Host (σ : Type) where
  /-- `TcpHeader.id_iter`, the next generated id (transport/tcp_header.py:36). -/
  ids : Nat := 0
  /-- `ResponseHandlers`, actions/response_handlers.py:18-23. -/
  pending : Dict Int Pending := []
  /-- `DiscoveryExtensionsRequestHandler.response`, actions/internal/discovery_extensions_request_handler.py:43. -/
  init : Option OutboundResponse := none
  /-- The dict shared by all `Settings()` objects, settings/settings.py:20. -/
  settings : Dict String PyVal := []
  /-- The extension's own state. -/
  ext : σ

/-- `Version(Version.MIN_COMPAT)`. -/
def minCompat : VerField := .obj (Version.new Version.MIN_COMPAT)

/-- The bytes in a `StreamOutput` after `write_to(output)`, or the exception. -/
def written (w : W) : Except Err (Option Bytes) :=
  match w.err with
  | some e => .error e
  | none => .ok (some w.out)

variable {σ H : Type}

/-- Build the `OutboundMessageResponse` that all request handlers build: same thread context,
features, request id and flags as the request, version `MIN_COMPAT`
(actions/internal/tcp_handshake_request_handler.py:30-38 and its siblings). -/
def replyTo (request : OutboundRequest) (message : W) (ids : Nat) : Except Err OutboundResponse × Nat :=
  OutboundResponse.new (some request.ctx) request.features (some message) minCompat
    (some request.tcp_header.request_id) request.tcp_header.isHandshake request.tcp_header.isCompress ids

/-- Build the reply and `send()` it, actions/request_handler.py:32-38. -/
def sendReply (ch : Choice) (s : Host σ) (request : OutboundRequest) (message : W) :
    Host σ × Except Err (Option Bytes) :=
  match replyTo request message s.ids with
  | (.error e, ids) => ({ s with ids := ids }, .error e)
  | (.ok r, ids) => ({ s with ids := ids }, written (r.writeTo ch.ho))

/-- `TcpHandshakeRequestHandler.handle`, actions/internal/tcp_handshake_request_handler.py:27-39. -/
def handleTcpHandshake (ch : Choice) (s : Host σ) (request : OutboundRequest) (input : Bytes) :
    Host σ × Except Err (Option Bytes) :=
  match HandshakerRequest.readFrom input with
  | .error e => (s, .error e)
  | .ok _ => sendReply ch s request (HandshakerResponse.writeTo ⟨Version.new Version.CURRENT⟩)

/-- The node the SDK presents itself as, actions/internal/transport_handshake_request_handler.py:38-48. -/
def helloWorldNode (ch : Choice) : DiscoveryNode :=
  DiscoveryNode.new "hello-world" "hello-world" none none none
    (TransportAddress.new (127 * 256 ^ 3 + 1) 1234 none) [] ch.roles none (Base64.ephemeralId ch.uuid)

/-- `TransportHandshakeRequestHandler.handle`, actions/internal/transport_handshake_request_handler.py:30-55;
cluster name and version are the defaults of transport/transport_service_handshake_response.py:22-32. -/
def handleTransportHandshake (ch : Choice) (s : Host σ) (request : OutboundRequest) (input : Bytes) :
    Host σ × Except Err (Option Bytes) :=
  match ServiceHandshakeRequest.readFrom input with
  | .error e => (s, .error e)
  | .ok _ => sendReply ch s request
      (ServiceHandshakeResponse.writeTo ⟨some (helloWorldNode ch), "", Version.new Version.CURRENT⟩)

/-- The message made from the handler's response, actions/internal/extension_rest_request_handler.py:37-44.  The set
of consumed parameters is written in its iteration order. -/
def executeResponse (ch : Choice) (r : ExtensionRestResponse) : RestExecuteOnExtensionResponse :=
  ⟨r.status, r.content_type, r.content, r.headers, ch.ho.order r.consumed_params, r.content_consumed⟩

/-- `ExtensionRestRequestHandler.handle`, actions/internal/extension_rest_request_handler.py:27-50. -/
def handleRest (env : Ext σ H) (ch : Choice) (s : Host σ) (request : OutboundRequest) (input : Bytes) :
    Host σ × Except Err (Option Bytes) :=
  match ExtensionRestRequest.readFrom {} input with
  | .error e => (s, .error e)
  | .ok (req, _) =>
    match req.method with
    | none => (s, .error .attribute)
    | some m =>
      match env.registry.handle env.run (m.name ++ " " ++ req.path) s.ext req with
      | (x, .error e) => ({ s with ext := x }, .error e)
      | (x, .ok response) =>
        sendReply ch { s with ext := x } request (executeResponse ch response).writeTo

/-- `DiscoveryExtensionsRequestHandler.handle`, actions/internal/discovery_extensions_request_handler.py:34-76. -/
def handleInit (env : Ext σ H) (ch : Choice) (s : Host σ) (request : OutboundRequest) (input : Bytes) :
    Host σ × Except Err (Option Bytes) :=
  match InitializeExtensionRequest.readFrom input with
  | .error e => (s, .error e)
  | .ok _ =>
    match replyTo request (InitializeExtensionResponse.writeTo ⟨env.name, env.interfaces⟩) s.ids with
    | (.error e, ids) => ({ s with ids := ids }, .error e)
    | (.ok response, ids) =>
      let s := { s with ids := ids, init := some response }
      match OutboundRequest.new (some request.ctx) request.features
          (some (ExtensionTransportRequest.new .REQUEST_EXTENSION_ENVIRONMENT_SETTINGS "").writeTo)
          minCompat "internal:discovery/enviornmentsettings" none false false s.ids with
      | (.error e, ids) => ({ s with ids := ids }, .error e)
      | (.ok settings_request, ids) =>
        let s := { s with ids := ids
                          pending := s.pending.set settings_request.tcp_header.request_id .settings }
        match OutboundRequest.new (some request.ctx) request.features
            (some (RegisterRestActionsRequest.new env.name env.registry.named_routes []).writeTo)
            minCompat "internal:discovery/registerrestactions" none false false s.ids with
        | (.error e, ids) => ({ s with ids := ids }, .error e)
        | (.ok register_request, ids) =>
          let s := { s with ids := ids
                            pending := s.pending.set register_request.tcp_header.request_id
                              (.registerRest settings_request) }
          (s, written (register_request.writeTo ch.ho))

/-- The text `{"error": "No handler found for <action>"}`,
actions/internal/action_not_found_request_error_handler.py:19. -/
def notFoundText (action : String) : String := "{\"error\": \"No handler found for " ++ action ++ "\"}"

/-- The message of the not-found reply, actions/internal/request_error_handler.py:36-40. -/
def notFoundResponse (action : String) : RestExecuteOnExtensionResponse where
  status := some .NOT_FOUND
  content_type := JSON_CONTENT_TYPE
  content := utf8 (notFoundText action)

/-- `ActionNotFoundRequestErrorHandler(extension, request).handle(request, input)`,
actions/internal/action_not_found_request_error_handler.py:18-19, actions/internal/request_error_handler.py:34-48. -/
def handleNotFound (ch : Choice) (s : Host σ) (request : OutboundRequest) :
    Host σ × Except Err (Option Bytes) :=
  sendReply ch s request (notFoundResponse request.action).writeTo

/-- `request_handlers.handle(request, input)` with the four handlers of
server/async_extension_host.py:36-41 (actions/request_handlers.py:25-27), and the not-found handler when there is
none (server/async_extension_host.py:55-57).  The dict of handlers is inlined; `C95_builtin` proves that the table gives the same. -/
def handleRequest (env : Ext σ H) (ch : Choice) (s : Host σ) (request : OutboundRequest) (input : Bytes) :
    Host σ × Except Err (Option Bytes) :=
  if request.action = "internal:discovery/extensions" then handleInit env ch s request input
  else if request.action = "internal:extensions/restexecuteonextensiontaction" then
    handleRest env ch s request input
  else if request.action = "internal:tcp/handshake" then handleTcpHandshake ch s request input
  else if request.action = "internal:transport/handshake" then handleTransportHandshake ch s request input
  else handleNotFound ch s request

/-- `RegisterRestActionsResponseHandler.handle`, actions/internal/register_rest_actions_response_handler.py:25-32. -/
def handleRegistered (ch : Choice) (s : Host σ) (next : OutboundRequest) (input : Bytes) :
    Host σ × Except Err (Option Bytes) :=
  match AcknowledgedResponse.readFrom input with
  | .error e => (s, .error e)
  | .ok (ack, _) => if ack.status then (s, written (next.writeTo ch.ho)) else (s, .ok none)

/-- `EnvironmentSettingsResponseHandler.handle`, actions/internal/environment_settings_response_handler.py:24-28, with
`EnvironmentSettingsResponse.read_from`, transport/environment_settings_response.py:23-26; then
`RequestHandler.send` of the initialisation handler, actions/request_handler.py:32-38 (`None.write_to`
is an AttributeError). -/
def handleSettings (env : Ext σ H) (ch : Choice) (s : Host σ) (input : Bytes) :
    Host σ × Except Err (Option Bytes) :=
  match Settings.readFrom env.depth s.settings input with
  | (d, .error e) => ({ s with settings := d }, .error e)
  | (d, .ok _) =>
    ({ s with settings := d },
      match s.init with
      | none => .error .attribute
      | some r => written (r.writeTo ch.ho))

/-- `response_handlers.handle(response, input)`, actions/response_handlers.py:25-27: the handler is
removed before it runs. -/
def handleResponse (env : Ext σ H) (ch : Choice) (s : Host σ) (response : OutboundResponse) (input : Bytes) :
    Host σ × Except Err (Option Bytes) :=
  match s.pending.get? response.tcp_header.request_id with
  | none => (s, .ok none)
  | some p =>
    let s := { s with pending := s.pending.erase response.tcp_header.request_id }
    match p with
    | .registerRest next => handleRegistered ch s next input
    | .settings => handleSettings env ch s input

/-- `AsyncExtensionHost.on_input`, server/async_extension_host.py:48-70.  `TcpHeader()`,
`OutboundMessageRequest()` and `OutboundMessageResponse()` each draw an id before they are filled. -/
def onInput (env : Ext σ H) (ch : Choice) (s : Host σ) (raw : Bytes) : Host σ × Except Err (Option Bytes) :=
  let s := { s with ids := (TcpHeader.new (.int Version.CURRENT) 0 none s.ids).2 }
  match TcpHeader.readFrom raw with
  | .error e => (s, .error e)
  | .ok (header, input) =>
    if header.isRequest then
      match OutboundRequest.new none [] none .none "" none false false s.ids with
      | (.error e, ids) => ({ s with ids := ids }, .error e)
      | (.ok blank, ids) =>
        let s := { s with ids := ids }
        match blank.readFrom (some header) input with
        | .error e => (s, .error e)
        | .ok (request, input) => handleRequest env ch s request input
    else
      match OutboundResponse.new none [] none .none none false false s.ids with
      | (.error e, ids) => ({ s with ids := ids }, .error e)
      | (.ok blank, ids) =>
        let s := { s with ids := ids }
        match blank.readFrom (some header) input with
        | .error e => (s, .error e)
        | .ok (response, input) =>
          if response.tcp_header.isError then (s, .ok none)
          else handleResponse env ch s response input

end Verif
