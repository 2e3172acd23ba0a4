import Verif.Model.Process
import Verif.Spec.History
/-!
# Specification: several hosts in one process
-/

namespace Verif
open Py

variable {σ : Type}

/-- A process in which hosts have been made, and `serve` was called of none of them yet. -/
def Unserved (p : Process σ) : Prop := ∀ h, p.hosts h = none

/-- The extension that `serve` was last called with on this host, if it was called. -/
def lastServed (h : Nat) : List (Act σ) → Option Nat
  | [] => none
  | .serve h' e :: l => (lastServed h l).or (if h' = h then some e else none)
  | _ :: l => lastServed h l

/-- `serve` is not called on this host. -/
def NotServed (h : Nat) (l : List (Act σ)) : Prop := ∀ e, Act.serve h e ∉ l

/-- These bytes arrive at this host. -/
def Arrives (h : Nat) (l : List (Act σ)) (raw : Bytes) : Prop := ∃ ch, Act.input h ch raw ∈ l

/-- This host waits for a response with this id. -/
def Process.Waits (p : Process σ) (h : Nat) (id : Int) : Prop := ∃ s, p.host h = some s ∧ Outstanding s id

end Verif
