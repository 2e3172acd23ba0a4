import Verif.Model.Display
/-!
# The log of one input

Every record `AsyncHost.on_connection`, `AsyncExtensionHost.on_input` and the handlers write about one chunk of bytes, with
its level, in order.  What an extension's own handlers log is not part of it.
-/

namespace Verif
open Py

/-- The levels the SDK logs at (server/async_host.py:49-60). -/
inductive LogLevel where
  | debug | info | warning
  deriving DecidableEq, Repr

/-- One record (server/async_host.py:49 and the other calls of `logging`). -/
structure LogRecord where
  level : LogLevel
  text : String
  deriving DecidableEq, Repr

variable {σ H : Type} (p : Shown)

/-- `send`: what is logged once the message has been written, with the text of the message
(actions/request_handler.py:32-38, actions/response_handler.py:26-32).  An exception while writing leaves no record. -/
def sendLog (text : String) (w : W) : List LogRecord :=
  match w.err with
  | some _ => []
  | none => [⟨.info, "> " ++ text ++ ", size=" ++ toString w.out.length ++ " byte(s)"⟩, ⟨.debug, "> #" ++ bytesRepr w.out⟩]

/-- A reply that is built and sent, see `sendReply` (actions/request_handler.py:32-38). -/
def replyLog (ch : Choice) (s : Host σ) (request : OutboundRequest) (message : W) (text : String) : List LogRecord :=
  match (replyTo request message s.ids).1 with
  | .error _ => []
  | .ok r => sendLog (r.str p (some text)) (r.writeTo ch.ho)

/-- actions/internal/tcp_handshake_request_handler.py:27-39. -/
def tcpHandshakeLog (ch : Choice) (s : Host σ) (request : OutboundRequest) (input : Bytes) : List LogRecord :=
  match HandshakerRequest.readFrom input with
  | .error _ => []
  | .ok (m, _) => ⟨.debug, "< " ++ m.str p⟩ ::
    replyLog p ch s request (HandshakerResponse.writeTo ⟨Version.new Version.CURRENT⟩)
      (HandshakerResponse.str p ⟨Version.new Version.CURRENT⟩)

/-- actions/internal/transport_handshake_request_handler.py:30-55.  The request has the `__str__` of
transport/transport_request.py:31-32; the roles of the node are a `set`. -/
def transportHandshakeLog (ch : Choice) (s : Host σ) (request : OutboundRequest) (input : Bytes) : List LogRecord :=
  match ServiceHandshakeRequest.readFrom input with
  | .error _ => []
  | .ok (m, _) => ⟨.debug, "< " ++ m.parent_task_id.str⟩ ::
    replyLog p ch s request
      (ServiceHandshakeResponse.writeTo ⟨some (helloWorldNode ch), "", Version.new Version.CURRENT⟩)
      (ServiceHandshakeResponse.str p false ⟨some (helloWorldNode ch), "", Version.new Version.CURRENT⟩)

/-- actions/internal/extension_rest_request_handler.py:27-50. -/
def restLog (env : Ext σ H) (ch : Choice) (s : Host σ) (request : OutboundRequest) (input : Bytes) : List LogRecord :=
  match ExtensionRestRequest.readFrom {} input with
  | .error _ => []
  | .ok (req, _) => ⟨.debug, restRecord p req⟩ ::
    match req.method with
    | none => []
    | some m =>
      match env.registry.handle env.run (m.name ++ " " ++ req.path) s.ext req with
      | (_, .error _) => []
      | (x, .ok response) =>
        replyLog p ch { s with ext := x } request (executeResponse ch response).writeTo ((executeResponse ch response).str p)

/-- actions/internal/discovery_extensions_request_handler.py:34-76.  The request that is sent shows its task id
(transport/transport_request.py:31-32). -/
def initLog (env : Ext σ H) (ch : Choice) (s : Host σ) (request : OutboundRequest) (input : Bytes) : List LogRecord :=
  match InitializeExtensionRequest.readFrom input with
  | .error _ => []
  | .ok (m, _) => ⟨.debug, initRecord p m⟩ ::
    match replyTo request (InitializeExtensionResponse.writeTo ⟨env.name, env.interfaces⟩) s.ids with
    | (.error _, _) => []
    | (.ok _, ids) =>
      match OutboundRequest.new (some request.ctx) request.features
          (some (ExtensionTransportRequest.new .REQUEST_EXTENSION_ENVIRONMENT_SETTINGS "").writeTo)
          minCompat "internal:discovery/enviornmentsettings" none false false ids with
      | (.error _, _) => []
      | (.ok _, ids) =>
        match OutboundRequest.new (some request.ctx) request.features
            (some (RegisterRestActionsRequest.new env.name env.registry.named_routes []).writeTo)
            minCompat "internal:discovery/registerrestactions" none false false ids with
        | (.error _, _) => []
        | (.ok register_request, _) =>
          sendLog (register_request.str p (some (TaskId.str {}))) (register_request.writeTo ch.ho)

/-- actions/internal/request_error_handler.py:34-48. -/
def notFoundLog (ch : Choice) (s : Host σ) (request : OutboundRequest) : List LogRecord :=
  replyLog p ch s request (notFoundResponse request.action).writeTo ((notFoundResponse request.action).str p)

/-- The handler of the action, as in `handleRequest` (server/async_extension_host.py:55-57). -/
def requestLog (env : Ext σ H) (ch : Choice) (s : Host σ) (request : OutboundRequest) (input : Bytes) : List LogRecord :=
  if request.action = "internal:discovery/extensions" then initLog p env ch s request input
  else if request.action = "internal:extensions/restexecuteonextensiontaction" then restLog p env ch s request input
  else if request.action = "internal:tcp/handshake" then tcpHandshakeLog p ch s request input
  else if request.action = "internal:transport/handshake" then transportHandshakeLog p ch s request input
  else notFoundLog p ch s request

/-- actions/internal/register_rest_actions_response_handler.py:25-32. -/
def registeredLog (ch : Choice) (next : OutboundRequest) (input : Bytes) : List LogRecord :=
  match AcknowledgedResponse.readFrom input with
  | .error _ => []
  | .ok (ack, _) => ⟨.debug, "< " ++ ack.str⟩ ::
    if ack.status then sendLog (next.str p (some (TaskId.str {}))) (next.writeTo ch.ho) else []

/-- actions/internal/environment_settings_response_handler.py:24-28.  The response has no `__str__`; the message of the
waiting reply is that of actions/internal/discovery_extensions_request_handler.py:46. -/
def settingsLog (env : Ext σ H) (ch : Choice) (s : Host σ) (input : Bytes) : List LogRecord :=
  match Settings.readFrom env.depth s.settings input with
  | (_, .error _) => []
  | (_, .ok _) =>
    ⟨.debug, "< " ++ p.object "opensearch_sdk_py.transport.environment_settings_response.EnvironmentSettingsResponse" 0⟩ ::
      match s.init with
      | none => []
      | some r => sendLog (r.str p (some (InitializeExtensionResponse.str p ⟨env.name, env.interfaces⟩))) (r.writeTo ch.ho)

/-- actions/response_handlers.py:25-27. -/
def responseLog (env : Ext σ H) (ch : Choice) (s : Host σ) (response : OutboundResponse) (input : Bytes) : List LogRecord :=
  match s.pending.get? response.tcp_header.request_id with
  | none => []
  | some (.registerRest next) => registeredLog p ch next input
  | some .settings => settingsLog p env ch s input

/-- `on_input`, server/async_extension_host.py:48-70, with everything the handlers log. -/
def inputLog (env : Ext σ H) (ch : Choice) (s : Host σ) (raw : Bytes) : List LogRecord :=
  let s := { s with ids := (TcpHeader.new (.int Version.CURRENT) 0 none s.ids).2 }
  match TcpHeader.readFrom raw with
  | .error _ => []
  | .ok (header, input) => ⟨.debug, "< " ++ header.str p⟩ ::
    if header.isRequest then
      match OutboundRequest.new none [] none .none "" none false false s.ids with
      | (.error _, _) => []
      | (.ok blank, ids) =>
        match blank.readFrom (some header) input with
        | .error _ => []
        | .ok (request, input) =>
          ⟨.info, "< " ++ request.str p none⟩ :: requestLog p env ch { s with ids := ids } request input
    else
      match OutboundResponse.new none [] none .none none false false s.ids with
      | (.error _, _) => []
      | (.ok blank, ids) =>
        match blank.readFrom (some header) input with
        | .error _ => []
        | .ok (response, input) =>
          if response.tcp_header.isError then [⟨.warning, "< error " ++ header.str p⟩]
          else ⟨.info, "< response " ++ response.str p none⟩ ::
            (responseLog p env ch { s with ids := ids } response input ++
              match (handleResponse env ch { s with ids := ids } response input).2 with
              | .ok none => [⟨.warning, "< response id " ++ toString response.tcp_header.request_id ++ " not registered"⟩]
              | _ => [])

/-- One turn of the loop in `on_connection`, server/async_host.py:47-58: `failure` is the text of the exception if `on_input`
raised one, `sent` that of the exception if `sock_sendall` did. -/
def chunkLog (env : Ext σ H) (ch : Choice) (s : Host σ) (raw : Bytes) (failure : String) (sent : Option String) :
    List LogRecord :=
  [⟨.info, readRecord raw⟩, ⟨.debug, rawRecord "<" raw⟩] ++ inputLog p env ch s raw ++
    match (onInput env ch s raw).2 with
    | .error _ => [⟨.warning, "! #" ++ failure⟩]
    | .ok none => []
    | .ok (some out) => ⟨.debug, rawRecord ">" out⟩ ::
      match sent with
      | some text => [⟨.warning, "! #" ++ text⟩]
      | none => []

end Verif
