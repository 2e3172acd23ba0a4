import Verif.Model.Host
/-!
# Routes registered while the host runs

Everywhere else the routes of the extension are fixed.  Here a program registers handlers when it likes.
-/

namespace Verif
open Py

variable {σ H : Type}

/-- A host, and `extension.extension_rest_handlers` of the extension that it serves (api/action_extension.py:31). -/
structure LiveHost (σ H : Type) where
  host : Host σ
  registry : Registry H := ⟨[], []⟩

/-- What happens: a call of `extension.extension_rest_handlers.register(handler)` (rest/extension_rest_handlers.py:27-38) with a handler
that has these routes, bytes that arrive, or anything else the program does (as in `Evolves`).  A registration by a REST handler while it
runs counts as coming after its request: the rest of that request's handling does not look at the routes
(actions/internal/extension_rest_request_handler.py:32-50). -/
inductive LiveAct (σ H : Type) where
  | register (h : H) (routes : List NamedRoute)
  | input (ch : Choice) (raw : Bytes)
  | other (n : Nat) (settings : Dict String PyVal) (x : σ)

namespace LiveHost

/-- The extension as it is now (extension.py:17-24, api/action_extension.py:26-36). -/
def env (e : Ext σ H) (p : LiveHost σ H) : Ext σ H := { e with registry := p.registry }

/-- `on_input` with the routes as they are now, server/async_extension_host.py:48-70. -/
def input (e : Ext σ H) (p : LiveHost σ H) (ch : Choice) (raw : Bytes) : LiveHost σ H × Except Err (Option Bytes) :=
  match onInput (p.env e) ch p.host raw with
  | (s, r) => ({ p with host := s }, r)

/-- One act.  The exception of a refused registration goes to the program; the routes accepted before it stay
(rest/extension_rest_handlers.py:32-38). -/
def act (e : Ext σ H) (p : LiveHost σ H) : LiveAct σ H → LiveHost σ H
  | .register h routes => { p with registry := (p.registry.register h routes).1 }
  | .input ch raw => (p.input e ch raw).1
  | .other n settings x => { p with host := { p.host with ids := p.host.ids + n, settings := settings, ext := x } }

/-- Any number of acts (rest/extension_rest_handlers.py:27-38, server/async_extension_host.py:48-70). -/
def acts (e : Ext σ H) (p : LiveHost σ H) (l : List (LiveAct σ H)) : LiveHost σ H := l.foldl (act e) p

end LiveHost
end Verif
