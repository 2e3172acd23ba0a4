import Mathlib.Data.Int.Bitwise
import Mathlib.Data.Nat.Bitwise
/-! Single bits of Python ints (two's complement of unbounded width). -/

namespace Verif

theorem land_two_pow_ne_zero (s : Int) (k : Nat) :
    Int.land s ((2 ^ k : Nat) : Int) ≠ 0 ↔ s.testBit k = true := by
  cases s with
  | ofNat m =>
    have : Int.land (Int.ofNat m) ((2 ^ k : Nat) : Int) = ((m &&& 2 ^ k : Nat) : Int) := rfl
    rw [this, Nat.and_two_pow]
    show _ ↔ m.testBit k = true
    cases m.testBit k <;> simp
  | negSucc m =>
    have : Int.land (Int.negSucc m) ((2 ^ k : Nat) : Int) = ((Nat.ldiff (2 ^ k) m : Nat) : Int) := rfl
    rw [this]
    show _ ↔ (!m.testBit k) = true
    constructor
    · intro h
      by_contra hc
      apply h
      have : Nat.ldiff (2 ^ k) m = 0 := by
        apply Nat.eq_of_testBit_eq
        intro j
        rw [Nat.testBit_ldiff, Nat.zero_testBit, Nat.testBit_two_pow]
        by_cases hj : k = j
        · subst hj; simpa using hc
        · simp [hj]
      simp [this]
    · intro h h0
      have h1 : Nat.ldiff (2 ^ k) m = 0 := by exact_mod_cast h0
      have := congrArg (fun x => x.testBit k) h1
      simp only [Nat.testBit_ldiff, Nat.zero_testBit, Nat.testBit_two_pow_self, Bool.true_and] at this
      rw [h] at this; exact absurd this (by decide)

theorem testBit_natCast_two_pow (k j : Nat) : Int.testBit ((2 ^ k : Nat) : Int) j = decide (k = j) := by
  show (2 ^ k).testBit j = _
  rw [Nat.testBit_two_pow]

end Verif
