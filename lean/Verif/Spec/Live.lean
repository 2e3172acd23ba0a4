import Verif.Model.Live
import Verif.Spec.History
import Verif.Spec.Extension
/-!
# Specification: routes registered while the host runs
-/

namespace Verif
open Py

variable {σ H : Type}

/-- The registrations in a history, in order. -/
def registrations : List (LiveAct σ H) → List (H × List NamedRoute)
  | [] => []
  | .register h routes :: l => (h, routes) :: registrations l
  | _ :: l => registrations l

/-- These bytes arrive in this history. -/
def ArrivesIn (l : List (LiveAct σ H)) (raw : Bytes) : Prop := ∃ ch, LiveAct.input ch raw ∈ l

/-- A host that was just set up, and an extension without routes. -/
def LiveHost.Fresh (p : LiveHost σ H) : Prop := Started p.host ∧ p.registry = ⟨[], []⟩

end Verif
