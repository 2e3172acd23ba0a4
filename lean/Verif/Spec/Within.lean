import Verif.Model.Within
import Verif.Spec.Server
import Verif.Spec.History
/-!
# Specification: hosts in a larger program
-/

namespace Verif
open Py

variable {σ : Type}

/-- What happened at the host without the calls and cancellations of `async_run`. -/
def events : List (Within σ) → List (Event σ)
  | [] => []
  | .event e :: ws => e :: events ws
  | _ :: ws => events ws

/-- The chunks read from `c`. -/
def chunksFrom (c : Nat) : List (Event σ) → List Bytes
  | [] => []
  | .recv d _ raw :: es => if d = c then raw :: chunksFrom c es else chunksFrom c es
  | _ :: es => chunksFrom c es

/-- `ws` is what happens in the program as the host sees it: what happens at this host, in order; and everything that happens elsewhere is
other code that runs. -/
inductive Sees (h : Nat) : List (FleetEvent σ) → List (Within σ) → Prop where
  | nil : Sees h [] []
  | here {es ws} (w : Within σ) : Sees h es ws → Sees h (.at h w :: es) (w :: ws)
  | elsewhere {es ws} (e : FleetEvent σ) (n : Nat) (d : Dict String PyVal) (x : σ) :
      (∀ w, e ≠ .at h w) → Sees h es ws → Sees h (e :: es) (.event (.other n d x) :: ws)

/-- Nobody asks the host to stop: `terminating` is not set, and the task that awaits `async_run` is not cancelled. -/
def NotStopped (ws : List (Within σ)) : Prop := .event .stop ∉ ws ∧ .interrupt ∉ ws


end Verif
