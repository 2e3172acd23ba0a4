import Verif.Model.Using
import Verif.Spec.Live
import Verif.Spec.Environment
/-!
# Specification: REST handlers that use the SDK themselves
-/

namespace Verif
open Py

variable {σ H : Type}

/-- The input is a REST request. -/
def AsksRest (raw : Bytes) : Prop :=
  ∃ req body, IsRequest raw req body ∧ req.action = "internal:extensions/restexecuteonextensiontaction"

/-- What arrives in a history, in order. -/
def arrivals : List (LiveAct σ H) → List Bytes
  | [] => []
  | .input _ raw :: l => raw :: arrivals l
  | _ :: l => arrivals l

/-- Handlers that leave the settings alone. -/
def KeepsSettings (use : Use σ H) : Prop := ∀ h c i r, (use h c i r).1.2.settings = i.settings

end Verif
