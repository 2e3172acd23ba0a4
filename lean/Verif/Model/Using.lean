import Verif.Model.Live
/-!
# REST handlers that use the SDK themselves

In `Model/Host` a REST handler is given the request and the extension's own state.  Handlers run in the process of the host and can reach
more: the environment settings, the process-wide counter of request ids (they may build messages) and the routes of the extension (they may
register handlers).
-/

namespace Verif
open Py

variable {σ H : Type}

/-- What a REST handler can read and change (settings/settings.py:20-23: all `Settings()` objects share one dict;
rest/extension_rest_handlers.py:20-38; the extension's own state). -/
structure Inside (σ H : Type) where
  settings : Dict String PyVal
  registry : Registry H
  ext : σ

/-- `handler.handle_request(request)` (rest/extension_rest_handler.py:23-25) for handlers of the user: what the handler makes of all that it
can reach, how many request ids it draws (transport/tcp_header.py:47-49), and its response or exception.  What it does may depend on the
counter too. -/
abbrev Use (σ H : Type) := H → Nat → Inside σ H → ExtensionRestRequest → (Nat × Inside σ H) × Except Err ExtensionRestResponse

/-- A handler as in `Model/Host`: it uses nothing but its own state (rest/extension_rest_handler.py:23-25). -/
def usesNothing (run : H → σ → ExtensionRestRequest → σ × Except Err ExtensionRestResponse) : Use σ H := fun h _ i req =>
  match run h i.ext req with
  | (x, r) => ((0, { i with ext := x }), r)

namespace LiveHost

/-- `ExtensionRestRequestHandler.handle`, actions/internal/extension_rest_request_handler.py:27-50.  The search for the route is over when
the handler runs, whatever it then does to the routes: `handle` returns from inside the loop
(rest/extension_rest_handlers.py:40-49). -/
def restUsing (use : Use σ H) (p : LiveHost σ H) (ch : Choice) (request : OutboundRequest) (input : Bytes) :
    LiveHost σ H × Except Err (Option Bytes) :=
  match ExtensionRestRequest.readFrom {} input with
  | .error e => (p, .error e)
  | .ok (req, _) =>
    match req.method with
    | none => (p, .error .attribute)
    | some m =>
      match p.registry.dispatch (m.name ++ " " ++ req.path) with
      | none => (p, .error .exception)
      | some h =>
        match use h p.host.ids ⟨p.host.settings, p.registry, p.host.ext⟩ req with
        | ((n, i), r) =>
          let s := { p.host with ids := p.host.ids + n, settings := i.settings, ext := i.ext }
          match r with
          | .error e => (⟨s, i.registry⟩, .error e)
          | .ok response =>
            match sendReply ch s request (executeResponse ch response).writeTo with
            | (s, out) => (⟨s, i.registry⟩, out)

/-- `on_input`, server/async_extension_host.py:48-70, as in `Model/Host`, but with such handlers. -/
def inputUsing (use : Use σ H) (e : Ext σ H) (p : LiveHost σ H) (ch : Choice) (raw : Bytes) : LiveHost σ H × Except Err (Option Bytes) :=
  let s := { p.host with ids := (TcpHeader.new (.int Version.CURRENT) 0 none p.host.ids).2 }
  match TcpHeader.readFrom raw with
  | .error x => ({ p with host := s }, .error x)
  | .ok (header, input) =>
    if header.isRequest then
      match OutboundRequest.new none [] none .none "" none false false s.ids with
      | (.error x, ids) => ({ p with host := { s with ids := ids } }, .error x)
      | (.ok blank, ids) =>
        let s := { s with ids := ids }
        match blank.readFrom (some header) input with
        | .error x => ({ p with host := s }, .error x)
        | .ok (request, input) =>
          if request.action = "internal:extensions/restexecuteonextensiontaction" then
            restUsing use { p with host := s } ch request input
          else
            match handleRequest (p.env e) ch s request input with
            | (s, r) => ({ p with host := s }, r)
    else
      match OutboundResponse.new none [] none .none none false false s.ids with
      | (.error x, ids) => ({ p with host := { s with ids := ids } }, .error x)
      | (.ok blank, ids) =>
        let s := { s with ids := ids }
        match blank.readFrom (some header) input with
        | .error x => ({ p with host := s }, .error x)
        | .ok (response, input) =>
          if response.tcp_header.isError then ({ p with host := s }, .ok none)
          else
            match handleResponse (p.env e) ch s response input with
            | (s, r) => ({ p with host := s }, r)

/-- One act, see `LiveHost.act` (rest/extension_rest_handlers.py:27-38, server/async_extension_host.py:48-70). -/
def actUsing (use : Use σ H) (e : Ext σ H) (p : LiveHost σ H) : LiveAct σ H → LiveHost σ H
  | .register h routes => { p with registry := (p.registry.register h routes).1 }
  | .input ch raw => (p.inputUsing use e ch raw).1
  | .other n settings x => { p with host := { p.host with ids := p.host.ids + n, settings := settings, ext := x } }

/-- Any number of acts (rest/extension_rest_handlers.py:27-38, server/async_extension_host.py:48-70). -/
def actsUsing (use : Use σ H) (e : Ext σ H) (p : LiveHost σ H) (l : List (LiveAct σ H)) : LiveHost σ H := l.foldl (actUsing use e) p

end LiveHost
end Verif
