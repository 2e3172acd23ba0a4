import Verif.Model.Server
/-!
# Handlers that raise what is not an `Exception`

`on_connection` catches `Exception` (server/async_host.py:57).  `SystemExit` (`sys.exit()`), `KeyboardInterrupt`, `asyncio.CancelledError`
and `GeneratorExit` are not `Exception`s.  If a REST handler raises one of them, it leaves `on_connection`, whose `finally` closes the connection
(server/async_host.py:65-66), and ends the task.  What asyncio does then is its documented behaviour: `SystemExit` and `KeyboardInterrupt`
are raised again out of the event loop, so `asyncio.run` (server/async_host.py:26) cancels all other tasks and raises; any other is kept in the task,
which nobody awaits (server/async_host.py:40).
-/

namespace Verif
open Py

variable {σ H : Type}

/-- An exception that is not an `Exception`, see server/async_host.py:57. -/
inductive Base where
  | systemExit
  | keyboardInterrupt
  | cancelledError
  | otherBase
  deriving DecidableEq, Repr

/-- asyncio raises it out of the event loop, server/async_host.py:26. -/
def Base.endsLoop : Base → Bool
  | .systemExit => true
  | .keyboardInterrupt => true
  | .cancelledError => false
  | .otherBase => false

/-- The handler that is called for these bytes, and its argument, if one is: server/async_extension_host.py:48-54, actions/request_handlers.py:25-27,
actions/internal/extension_rest_request_handler.py:27-34, rest/extension_rest_handlers.py:40-49. -/
def restCall (env : Ext σ H) (raw : Bytes) : Option (H × ExtensionRestRequest) :=
  match TcpHeader.readFrom raw with
  | .error _ => none
  | .ok (header, input) =>
    if header.isRequest then
      match (OutboundRequest.new none [] none .none "" none false false 0).1 with
      | .error _ => none
      | .ok blank =>
        match blank.readFrom (some header) input with
        | .error _ => none
        | .ok (request, input) =>
          if request.action = "internal:extensions/restexecuteonextensiontaction" then
            match ExtensionRestRequest.readFrom {} input with
            | .error _ => none
            | .ok (req, _) =>
              match req.method with
              | none => none
              | some m => (env.registry.dispatch (m.name ++ " " ++ req.path)).map fun h => (h, req)
          else none
    else none

/-- The state after a handler has raised: the same for all exceptions (nothing in server/async_extension_host.py:48-70 or in actions/ catches any). -/
def hostLeft (env : Ext σ H) (ch : Choice) (s : Host σ) (raw : Bytes) : Host σ :=
  (onInput { env with run := fun h x q => ((env.run h x q).1, .error .user) } ch s raw).1

/-- The exception leaves `on_connection`: its connection is closed, server/async_host.py:65-66; then the loop ends, or not
(server/async_host.py:26, 40). -/
def Server.leave (env : Ext σ H) (S : Server σ) (c : Nat) (k : Conn) (ch : Choice) (raw : Bytes) (b : Base) : Server σ :=
  let S := { S.setConn c { k with phase := .closed } with host := hostLeft env ch S.host raw }
  if b.endsLoop then S.shutdown else S

/-- One step, if handlers may raise anything: `leaves h x q` is what handler `h` raises on request `q` in state `x` if that is no `Exception`
(server/async_host.py:44-66). -/
def Server.stepAny (env : Ext σ H) (leaves : H → σ → ExtensionRestRequest → Option Base) (S : Server σ) (e : Event σ) : Option (Server σ) :=
  match e with
  | .recv c ch raw =>
    match S.conns c with
    | none => none
    | some k =>
      match restCall env raw with
      | none => S.step env e
      | some (h, q) =>
        match leaves h S.host.ext q with
        | none => S.step env e
        | some b =>
          if k.phase = .waiting ∧ raw ≠ [] ∧ raw.length ≤ RECV_LIMIT then some (S.leave env c k ch raw b) else none
  | e => S.step env e

/-- A run, if handlers may raise anything (server/async_host.py:28-66). -/
def Server.runAny (env : Ext σ H) (leaves : H → σ → ExtensionRestRequest → Option Base) (S : Server σ) : List (Event σ) → Option (Server σ)
  | [] => some S
  | e :: es => (S.stepAny env leaves e).bind fun S' => S'.runAny env leaves es

end Verif
