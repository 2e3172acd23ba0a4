import Verif.Spec.Server
/-!
# Specification: runs without end

What happens eventually is a statement about infinite runs in which the operating system goes on taking bytes.
-/

namespace Verif
open Py

variable {σ H : Type}

/-- An infinite run: `S i` is the server after `i` events, `ev i` the event that happens then. -/
def Runs (env : Ext σ H) (S : Nat → Server σ) (ev : Nat → Event σ) : Prop :=
  ∀ i, (S i).step env (ev i) = some (S (i + 1))

/-- The operating system does not forget the connection: whenever bytes wait to be sent on it, it takes some of them
sooner or later. -/
def TakesBytes (S : Nat → Server σ) (ev : Nat → Event σ) (c : Nat) : Prop :=
  ∀ i rest wire, (S i).conns c = some ⟨.sending rest, wire⟩ →
    ∃ j ≥ i, ∃ n, ev j = .sent c n ∧ (rest = [] ∨ 0 < n)

/-- No send on the connection ever fails. -/
def NeverFails (ev : Nat → Event σ) (c : Nat) : Prop := ∀ i, ev i ≠ .sendFail c

end Verif
