import Verif.Model.Host
/-!
# The handler tables: actions/request_handlers.py, actions/response_handlers.py

`Model/Host.lean` has the four built-in request handlers and the two response handlers inlined.  Here are the tables
themselves, with whatever handlers are registered in them; `Props/Handlers.lean` proves that the inlined form is the
table `serve` sets up.
-/

namespace Verif
open Py

/-- A `RequestHandler` (actions/request_handler.py:22-38): its action, and what its `handle(request, input)` does with the state
`S`, here a function of the request and the bytes left in the input. -/
structure RequestHandler (S : Type) where
  action : String
  handle : S → OutboundRequest → Bytes → S × Except Err (Option Bytes)

/-- `RequestHandlers`, a dict from actions to handlers, actions/request_handlers.py:18-20. -/
abbrev RequestHandlers (S : Type) := Dict String (RequestHandler S)

namespace RequestHandlers
variable {S : Type}

/-- `register(handler)`, actions/request_handlers.py:22-23. -/
def register (d : RequestHandlers S) (h : RequestHandler S) : RequestHandlers S := d.set h.action h

/-- `handle(request, input)`, actions/request_handlers.py:25-27. -/
def handle (d : RequestHandlers S) (s : S) (request : OutboundRequest) (input : Bytes) : S × Except Err (Option Bytes) :=
  match d.get? request.action with
  | some h => h.handle s request input
  | none => (s, .ok none)

end RequestHandlers

variable {σ H : Type}

/-- The request handlers after `serve(extension)`, server/async_extension_host.py:36-46. -/
def serveHandlers (env : Ext σ H) (ch : Choice) : RequestHandlers (Host σ) :=
  ((((RequestHandlers.register []
    ⟨"internal:discovery/extensions", fun s request input => handleInit env ch s request input⟩).register
    ⟨"internal:extensions/restexecuteonextensiontaction", fun s request input => handleRest env ch s request input⟩).register
    ⟨"internal:tcp/handshake", fun s request input => handleTcpHandshake ch s request input⟩).register
    ⟨"internal:transport/handshake", fun s request input => handleTransportHandshake ch s request input⟩)

/-- What `on_input` does with a request that has been read, server/async_extension_host.py:55-57: `request_handlers.handle`, and the
not-found handler when that gives `None`. -/
def answerWith (d : RequestHandlers (Host σ)) (ch : Choice) (s : Host σ) (request : OutboundRequest) (input : Bytes) :
    Host σ × Except Err (Option Bytes) :=
  match d.handle s request input with
  | (s', .ok none) => handleNotFound ch s' request
  | r => r

/-- `AsyncExtensionHost.on_input` with whatever request handlers are registered, server/async_extension_host.py:48-70.  The branch for
responses is that of `onInput`. -/
def onInputWith (d : RequestHandlers (Host σ)) (env : Ext σ H) (ch : Choice) (s : Host σ) (raw : Bytes) :
    Host σ × Except Err (Option Bytes) :=
  let s := { s with ids := (TcpHeader.new (.int Version.CURRENT) 0 none s.ids).2 }
  match TcpHeader.readFrom raw with
  | .error e => (s, .error e)
  | .ok (header, input) =>
    if header.isRequest then
      match OutboundRequest.new none [] none .none "" none false false s.ids with
      | (.error e, ids) => ({ s with ids := ids }, .error e)
      | (.ok blank, ids) =>
        let s := { s with ids := ids }
        match blank.readFrom (some header) input with
        | .error e => (s, .error e)
        | .ok (request, input) => answerWith d ch s request input
    else
      match OutboundResponse.new none [] none .none none false false s.ids with
      | (.error e, ids) => ({ s with ids := ids }, .error e)
      | (.ok blank, ids) =>
        let s := { s with ids := ids }
        match blank.readFrom (some header) input with
        | .error e => (s, .error e)
        | .ok (response, input) =>
          if response.tcp_header.isError then (s, .ok none)
          else handleResponse env ch s response input

/-- `ResponseHandlers`, a dict from request ids to handlers (of any type `T`), actions/response_handlers.py:18-20. -/
abbrev ResponseHandlers (T : Type) := Dict Int T

namespace ResponseHandlers
variable {T : Type}

/-- `register(request_id, handler)`, actions/response_handlers.py:22-23. -/
def register (d : ResponseHandlers T) (id : Int) (h : T) : ResponseHandlers T := d.set id h

/-- `self.pop(response.request_id, None)`, actions/response_handlers.py:26: the handler that will be run, and what stays. -/
def pop (d : ResponseHandlers T) (id : Int) : Option T × ResponseHandlers T := (d.get? id, d.erase id)

end ResponseHandlers

end Verif
