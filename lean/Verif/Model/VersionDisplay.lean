import Mathlib.Data.Rat.Floor
import Mathlib.Algebra.Order.Archimedean.Basic
import Mathlib.Data.Int.Log
import Mathlib.Tactic.Positivity
import Mathlib.Tactic.Linarith
import Mathlib.Tactic.FieldSimp
import Verif.Model.Version
/-!
# Display components of `Version` (transport/version.py:25-34)

The code divides with Python's `/`, i.e. in IEEE double arithmetic.  The rounding of the division
is a parameter: any function with the accuracy IEEE 754 guarantees for a correctly rounded
quotient.  Remainder (`float % 100`) and `int(...)` are exact in IEEE arithmetic for non-negative
operands and are modelled exactly.
-/

namespace Verif

/-- The values Python's `a / b` may return on non-negative integers below 2^64, as rationals:
relative error at most 2^-53, and exact when the quotient is an integer of at most 53 bits. -/
structure FloatDiv where
  div : Nat → Nat → ℚ
  err : ∀ a b, 0 < b → a < 2 ^ 64 → b < 2 ^ 64 → |div a b - (a : ℚ) / b| ≤ (a : ℚ) / b * (1 / 2 ^ 53)
  exact : ∀ a b, 0 < b → a < 2 ^ 64 → b < 2 ^ 64 → b ∣ a → a / b ≤ 2 ^ 53 → div a b = (a : ℚ) / b

namespace Version

/-- `int(x % 100)` for a non-negative float `x` (transport/version.py:28-30). -/
def component (x : ℚ) : Int := ⌊x - 100 * (⌊x / 100⌋ : Int)⌋

/-- `self.id & 0xF7FFFFFF`, transport/version.py:27; a non-negative number whatever `id` is. -/
def displayId (v : Version) : Nat := (Int.land v.id 0xF7FFFFFF).toNat

/-- `self.major`, transport/version.py:28. -/
def major (fd : FloatDiv) (v : Version) : Int := component (fd.div v.displayId 1000000)
/-- `self.minor`, transport/version.py:29. -/
def minor (fd : FloatDiv) (v : Version) : Int := component (fd.div v.displayId 10000)
/-- `self.revision`, transport/version.py:30. -/
def revision (fd : FloatDiv) (v : Version) : Int := component (fd.div v.displayId 100)
/-- `self.build`, transport/version.py:31 (integer arithmetic). -/
def build (v : Version) : Int := ((v.displayId % 100 : Nat) : Int)

/-- `__str__`, transport/version.py:33-34. -/
def str (fd : FloatDiv) (v : Version) : String :=
  s!"{major fd v}.{minor fd v}.{revision fd v}.{build v}"

end Version

/-- Round half to even. -/
def roundHalfEven (x : ℚ) : Int :=
  let f := ⌊x⌋
  if x - f < 1 / 2 then f
  else if x - f > 1 / 2 then f + 1
  else if f % 2 = 0 then f else f + 1

/-- Correctly rounded double nearest to a non-negative rational (round half to even, 53-bit
significand, no overflow or underflow). -/
def roundDouble (x : ℚ) : ℚ :=
  if x = 0 then 0
  else (roundHalfEven (x * (2 : ℚ) ^ (52 - Int.log 2 x)) : ℚ) / (2 : ℚ) ^ (52 - Int.log 2 x)

theorem roundHalfEven_err (x : ℚ) : |(roundHalfEven x : ℚ) - x| ≤ 1 / 2 := by
  have h1 := Int.floor_le x
  have h2 := Int.lt_floor_add_one x
  unfold roundHalfEven
  simp only
  split_ifs <;> rw [abs_le] <;> push_cast <;> constructor <;> linarith

theorem roundHalfEven_int (z : Int) : roundHalfEven (z : ℚ) = z := by
  simp [roundHalfEven]

theorem roundDouble_err {x : ℚ} (hx : 0 ≤ x) : |roundDouble x - x| ≤ x * (1 / 2 ^ 53) := by
  unfold roundDouble
  split_ifs with h
  · simp [h]
  · have hx : 0 < x := lt_of_le_of_ne hx (Ne.symm h)
    set e := Int.log 2 x with he
    have hs : (0 : ℚ) < (2 : ℚ) ^ (52 - e) := zpow_pos (by norm_num) _
    have h1 := roundHalfEven_err (x * (2 : ℚ) ^ (52 - e))
    have h2 : (roundHalfEven (x * (2 : ℚ) ^ (52 - e)) : ℚ) / (2 : ℚ) ^ (52 - e) - x =
        ((roundHalfEven (x * (2 : ℚ) ^ (52 - e)) : ℚ) - x * (2 : ℚ) ^ (52 - e)) / (2 : ℚ) ^ (52 - e) := by
      field_simp
    rw [h2, abs_div, abs_of_pos hs, div_le_iff₀ hs]
    refine h1.trans ?_
    have h3 : (2 : ℚ) ^ e ≤ x := by
      have := Int.zpow_log_le_self (R := ℚ) (b := 2) (by decide) hx
      simpa [he] using this
    have h4 : (2 : ℚ) ^ (52 - e) * (2 : ℚ) ^ e = 2 ^ 52 := by
      rw [← zpow_add₀ (by norm_num)]; norm_num
    have h5 : (2 : ℚ) ^ 52 ≤ x * (2 : ℚ) ^ (52 - e) := by
      rw [← h4, mul_comm]; exact mul_le_mul_of_nonneg_right h3 hs.le
    have : x * (1 / 2 ^ 53) * (2 : ℚ) ^ (52 - e) = x * (2 : ℚ) ^ (52 - e) / 2 ^ 53 := by ring
    rw [this, le_div_iff₀ (by positivity)]
    norm_num at h5 ⊢; linarith

theorem roundDouble_nat {n : Nat} (hn : n ≤ 2 ^ 53) : roundDouble (n : ℚ) = n := by
  unfold roundDouble
  split_ifs with h
  · exact h.symm
  · have hn0 : n ≠ 0 := by rintro rfl; exact h (by simp)
    by_cases h53 : n = 2 ^ 53
    · subst h53
      have : Int.log 2 (((2 ^ 53 : Nat) : ℚ)) = 53 := by
        rw [Int.log_natCast, Nat.log_pow (by decide)]; rfl
      rw [this]
      have h2 : ((2 ^ 53 : Nat) : ℚ) * (2 : ℚ) ^ ((52 : Int) - 53) = ((2 ^ 52 : Int) : ℚ) := by norm_num
      rw [h2, roundHalfEven_int]; norm_num
    · have hl : Nat.log 2 n ≤ 52 := by
        have := Nat.log_lt_of_lt_pow hn0 (show n < 2 ^ 53 by omega); omega
      rw [Int.log_natCast]
      obtain ⟨k, hk⟩ : ∃ k : Nat, (52 : Int) - (Nat.log 2 n : Int) = k := ⟨52 - Nat.log 2 n, by omega⟩
      rw [hk, zpow_natCast]
      have h2 : (n : ℚ) * (2 : ℚ) ^ k = (((n * 2 ^ k : Nat) : Int) : ℚ) := by push_cast; ring
      rw [h2, roundHalfEven_int]; push_cast; field_simp

/-- CPython's correctly rounded division: the assumptions on `FloatDiv` are satisfiable, by the
IEEE double rounding itself. -/
def ieeeDiv : FloatDiv where
  div a b := roundDouble ((a : ℚ) / b)
  err a b _ _ _ := roundDouble_err (by positivity)
  exact a b hb _ _ hd hq := by
    obtain ⟨c, rfl⟩ := hd
    have : ((b * c : Nat) : ℚ) / b = (c : ℚ) := by push_cast; field_simp
    rw [this, roundDouble_nat]
    rwa [Nat.mul_div_cancel_left _ hb] at hq

end Verif
