import Verif.Spec.Server
/-!
# Specification: how much has been sent

What the operating system says it took is part of the events of a run.
-/

namespace Verif
open Py

variable {σ H : Type}

/-- The number of bytes the operating system has taken for connection `c` during the run. -/
def taken (c : Nat) : List (Event σ) → Nat
  | [] => 0
  | .sent d n :: es => (if d = c then n else 0) + taken c es
  | _ :: es => taken c es

/-- The connection an event is about. -/
def Event.about : Event σ → Option Nat
  | .accept c => some c
  | .recv c _ _ => some c
  | .sent c _ => some c
  | .sendFail c => some c
  | .eof c => some c
  | _ => none

end Verif
