import Mathlib.Tactic.Ring
import Mathlib.Tactic.Linarith
import Mathlib.Tactic.FieldSimp
import Mathlib.Tactic.NormNum
import Mathlib.Tactic.Positivity
import Mathlib.Algebra.Order.Field.Rat
import Verif.Lemmas.Float
import Verif.Spec.Floats
/-! Values of floats in whole multiples of the smallest one. -/

namespace Verif
open Py F64 Spec

/-- The magnitude of a double in units of 2^-1074. -/
def dval (m : Nat) : Nat := if m / 2 ^ 52 = 0 then m % 2 ^ 52 else (2 ^ 52 + m % 2 ^ 52) * 2 ^ (m / 2 ^ 52 - 1)

/-- The magnitude of a single in units of 2^-149. -/
def sval (k : Nat) : Nat := if k / 2 ^ 23 = 0 then k % 2 ^ 23 else (2 ^ 23 + k % 2 ^ 23) * 2 ^ (k / 2 ^ 23 - 1)

theorem sval_small {k : Nat} (h : k ≤ 2 ^ 23) : sval k = k := by
  unfold sval
  split
  · omega
  · have : k = 2 ^ 23 := by omega
    subst this; decide

theorem sval_succ (k : Nat) : sval (k + 1) = sval k + 2 ^ (k / 2 ^ 23 - 1) := by
  unfold sval
  by_cases h0 : k / 2 ^ 23 = 0
  · rw [if_pos h0]
    split
    · rw [h0]; norm_num; omega
    · have : k + 1 = 2 ^ 23 := by omega
      rw [this, h0, show k = 2 ^ 23 - 1 by omega]; decide
  · rw [if_neg h0]
    obtain ⟨E, hE⟩ : ∃ E, k / 2 ^ 23 = E + 1 := ⟨k / 2 ^ 23 - 1, by omega⟩
    by_cases h1 : (k + 1) % 2 ^ 23 = 0
    · have e1 : (k + 1) / 2 ^ 23 = E + 2 := by omega
      have e2 : k % 2 ^ 23 = 2 ^ 23 - 1 := by omega
      rw [if_neg (by omega), e1, hE, e2, h1]
      simp only [Nat.add_sub_cancel, show E + 2 - 1 = E + 1 by omega, pow_succ]
      omega
    · have e1 : (k + 1) / 2 ^ 23 = E + 1 := by omega
      have e2 : (k + 1) % 2 ^ 23 = k % 2 ^ 23 + 1 := by omega
      rw [if_neg (by omega), e1, hE, e2]
      simp only [Nat.add_sub_cancel]
      ring

theorem sval_strictMono : StrictMono sval := strictMono_nat_of_lt_succ fun k => by
  rw [sval_succ]; have : 0 < 2 ^ (k / 2 ^ 23 - 1) := by positivity
  omega

theorem dval_magOfSingle {k : Nat} (h : k < 255 * 2 ^ 23) : dval (magOfSingle k) = sval k * 2 ^ 925 := by
  by_cases h1 : k < 2 ^ 23
  · rw [sval_small (by omega)]
    unfold magOfSingle
    rw [if_pos h1]
    by_cases h0 : k = 0
    · rw [if_pos h0, h0, Nat.zero_mul]; decide
    · rw [if_neg h0]
      obtain ⟨a, b⟩ := log2_bounds h0
      generalize Nat.log2 k = L at *
      have hL : L ≤ 22 := by
        by_contra hc
        have : 2 ^ 23 ≤ 2 ^ L := Nat.pow_le_pow_right (by decide) (by omega)
        omega
      have hp : 2 ^ L * 2 ^ (52 - L) = 2 ^ 52 := by rw [← pow_add]; congr 1; omega
      have hf : (k - 2 ^ L) * 2 ^ (52 - L) < 2 ^ 52 := by
        calc (k - 2 ^ L) * 2 ^ (52 - L) < 2 ^ L * 2 ^ (52 - L) := by
              apply Nat.mul_lt_mul_of_pos_right _ (by positivity)
              rw [pow_succ] at b; omega
          _ = 2 ^ 52 := hp
      unfold dval
      have e1 : ((L + 874) * 2 ^ 52 + (k - 2 ^ L) * 2 ^ (52 - L)) / 2 ^ 52 = L + 874 := by
        rw [Nat.mul_comm, Nat.mul_add_div (by positivity), Nat.div_eq_of_lt hf]
      have e2 : ((L + 874) * 2 ^ 52 + (k - 2 ^ L) * 2 ^ (52 - L)) % 2 ^ 52 = (k - 2 ^ L) * 2 ^ (52 - L) := by
        rw [Nat.mul_comm, Nat.mul_add_mod, Nat.mod_eq_of_lt hf]
      rw [e1, e2, if_neg (by omega), ← hp, ← Nat.add_mul, Nat.add_sub_cancel' a, Nat.mul_assoc, ← pow_add,
        show 52 - L + (L + 874 - 1) = 925 by omega]
  · unfold magOfSingle
    rw [if_neg h1, if_pos h]
    unfold dval sval
    have e1 : (k * 2 ^ 29 + 896 * 2 ^ 52) / 2 ^ 52 = k / 2 ^ 23 + 896 := by omega
    have e2 : (k * 2 ^ 29 + 896 * 2 ^ 52) % 2 ^ 52 = (k % 2 ^ 23) * 2 ^ 29 := by omega
    obtain ⟨E, hE⟩ : ∃ E, k / 2 ^ 23 = E + 1 := ⟨k / 2 ^ 23 - 1, by omega⟩
    rw [e1, e2, hE, if_neg (by omega), if_neg (by omega)]
    rw [show E + 1 + 896 - 1 = E + 896 by omega, Nat.add_sub_cancel, pow_add,
      show (2 : Nat) ^ 925 = 2 ^ 29 * 2 ^ 896 by rw [← pow_add], show (2 : Nat) ^ 52 = 2 ^ 23 * 2 ^ 29 by rw [← pow_add]]
    generalize (2 : Nat) ^ 896 = A
    ring

/-- The rounding step of `mag32`: a quotient, a remainder, and what they are worth. -/
theorem mag32_split {m : Nat} (_ : m < 2047 * 2 ^ 52) :
    ∃ n s w, 0 < w ∧ mag32 m = roundShift n s ∧
      dval m = sval (n / 2 ^ s) * 2 ^ 925 + n % 2 ^ s * w ∧
      sval (n / 2 ^ s + 1) * 2 ^ 925 = sval (n / 2 ^ s) * 2 ^ 925 + 2 ^ s * w := by
  unfold mag32
  by_cases he : m / 2 ^ 52 ≤ 896
  · simp only [he, if_true]
    set e' := max (m / 2 ^ 52) 1 with hE
    set mant := (if m / 2 ^ 52 = 0 then m % 2 ^ 52 else 2 ^ 52 + m % 2 ^ 52) with hmant
    have he1 : 1 ≤ e' := by omega
    have he2 : e' ≤ 896 := by omega
    have hd : dval m = mant * 2 ^ (e' - 1) := by
      unfold dval
      split
      · next h => rw [hmant, if_pos h, hE, h]; simp
      · next h => rw [hmant, if_neg h, hE, max_eq_left (by omega)]
    have hp : 2 ^ (926 - e') * 2 ^ (e' - 1) = 2 ^ 925 := by rw [← pow_add]; congr 1; omega
    have hq : mant / 2 ^ (926 - e') < 2 ^ 23 := by
      apply Nat.div_lt_of_lt_mul
      have : mant < 2 ^ 53 := by rw [hmant]; split <;> omega
      calc mant < 2 ^ 53 := this
        _ = 2 ^ 30 * 2 ^ 23 := by rw [← pow_add]
        _ ≤ 2 ^ (926 - e') * 2 ^ 23 := Nat.mul_le_mul_right _ (Nat.pow_le_pow_right (by decide) (by omega))
    refine ⟨mant, 926 - e', 2 ^ (e' - 1), by positivity, rfl, ?_, ?_⟩
    · rw [hd, sval_small (by omega), ← hp, ← Nat.mul_assoc, ← Nat.add_mul, Nat.mul_comm (mant / _),
        Nat.div_add_mod]
    · rw [sval_small (by omega), sval_small (by omega), Nat.add_mul, hp, Nat.one_mul]
  · simp only [he, if_false]
    set n := m - 896 * 2 ^ 52 with hn
    obtain ⟨E, hE⟩ : ∃ E, m / 2 ^ 52 = E + 897 := ⟨m / 2 ^ 52 - 897, by omega⟩
    have hq : n / 2 ^ 29 / 2 ^ 23 = E + 1 := by omega
    refine ⟨n, 29, 2 ^ (E + 896), by positivity, rfl, ?_, ?_⟩
    · unfold dval sval
      have hf : m % 2 ^ 52 = (n / 2 ^ 29 % 2 ^ 23) * 2 ^ 29 + n % 2 ^ 29 := by omega
      rw [hE, hq, hf, if_neg (by omega), if_neg (by omega), show E + 897 - 1 = E + 896 by omega,
        Nat.add_sub_cancel, pow_add, show (2 : Nat) ^ 925 = 2 ^ 29 * 2 ^ 896 by rw [← pow_add],
        show (2 : Nat) ^ 52 = 2 ^ 23 * 2 ^ 29 by rw [← pow_add]]
      generalize (2 : Nat) ^ 896 = A
      ring
    · rw [sval_succ, hq, Nat.add_sub_cancel, Nat.add_mul, show (2 : Nat) ^ 925 = 2 ^ 29 * 2 ^ 896 by rw [← pow_add],
        pow_add]
      generalize (2 : Nat) ^ 896 = A
      ring

/-- Rounding to the nearest single, ties to even, in units of 2^-1074. -/
theorem mag32_nearest {m : Nat} (hm : m < 2047 * 2 ^ 52) (k : Nat) :
    |(dval m : ℤ) - (sval (mag32 m) * 2 ^ 925 : Nat)| ≤ |(dval m : ℤ) - (sval k * 2 ^ 925 : Nat)| ∧
    (k ≠ mag32 m →
      |(dval m : ℤ) - (sval (mag32 m) * 2 ^ 925 : Nat)| = |(dval m : ℤ) - (sval k * 2 ^ 925 : Nat)| →
      mag32 m % 2 = 0) := by
  obtain ⟨n, s, w, hw, he, hd, hs⟩ := mag32_split hm
  have hr : n % 2 ^ s < 2 ^ s := Nat.mod_lt _ (by positivity)
  have hA : 0 < 2 ^ 925 := by positivity
  rw [he, hd]
  unfold roundShift
  simp only
  generalize n / 2 ^ s = q at *
  generalize n % 2 ^ s = r at *
  generalize (2 : Nat) ^ s = B at *
  generalize (2 : Nat) ^ 925 = A at *
  have hlow : k ≤ q → sval k * A ≤ sval q * A := fun h => Nat.mul_le_mul_right _ (sval_strictMono.monotone h)
  have hlow' : k < q → sval k * A < sval q * A :=
    fun h => Nat.mul_lt_mul_of_pos_right (sval_strictMono h) hA
  have hhigh : q + 1 ≤ k → sval (q + 1) * A ≤ sval k * A :=
    fun h => Nat.mul_le_mul_right _ (sval_strictMono.monotone h)
  have hhigh' : q + 1 < k → sval (q + 1) * A < sval k * A :=
    fun h => Nat.mul_lt_mul_of_pos_right (sval_strictMono h) hA
  have hxy : r * w < B * w := Nat.mul_lt_mul_of_pos_right hr hw
  have m1 : 2 * r < B → 2 * (r * w) < B * w := fun h => by
    have := Nat.mul_lt_mul_of_pos_right h hw; rw [Nat.mul_assoc] at this; exact this
  have m2 : B < 2 * r → B * w < 2 * (r * w) := fun h => by
    have := Nat.mul_lt_mul_of_pos_right h hw; rw [Nat.mul_assoc] at this; exact this
  have m3 : 2 * r = B → 2 * (r * w) = B * w := fun h => by rw [← h, Nat.mul_assoc]
  by_cases c1 : 2 * r < B
  · rw [if_pos c1]
    have := m1 c1
    by_cases hk : k ≤ q
    · have := hlow hk
      by_cases hk' : k < q
      · have := hlow' hk'
        generalize r * w = x at *; generalize B * w = y at *; generalize sval q * A = a at *
        generalize sval k * A = c at *
        rcases abs_cases (((a + x : Nat) : ℤ) - (a : Nat)) with ⟨e1, _⟩ | ⟨e1, _⟩ <;>
        rcases abs_cases (((a + x : Nat) : ℤ) - (c : Nat)) with ⟨e2, _⟩ | ⟨e2, _⟩ <;> rw [e1, e2] <;>
        exact ⟨by omega, fun _ _ => by omega⟩
      · have : k = q := by omega
        subst this
        exact ⟨le_refl _, fun h => absurd rfl h⟩
    · have := hhigh (by omega)
      generalize r * w = x at *; generalize B * w = y at *; generalize sval q * A = a at *
      generalize sval k * A = c at *; generalize sval (q + 1) * A = b at *
      rcases abs_cases (((a + x : Nat) : ℤ) - (a : Nat)) with ⟨e1, _⟩ | ⟨e1, _⟩ <;>
      rcases abs_cases (((a + x : Nat) : ℤ) - (c : Nat)) with ⟨e2, _⟩ | ⟨e2, _⟩ <;> rw [e1, e2] <;>
      exact ⟨by omega, fun _ _ => by omega⟩
  rw [if_neg c1]
  by_cases c2 : B < 2 * r
  · rw [if_pos c2]
    have := m2 c2
    by_cases hk : k ≤ q
    · have := hlow hk
      generalize r * w = x at *; generalize B * w = y at *; generalize sval q * A = a at *
      generalize sval k * A = c at *; generalize sval (q + 1) * A = b at *
      rcases abs_cases (((a + x : Nat) : ℤ) - (b : Nat)) with ⟨e1, _⟩ | ⟨e1, _⟩ <;>
      rcases abs_cases (((a + x : Nat) : ℤ) - (c : Nat)) with ⟨e2, _⟩ | ⟨e2, _⟩ <;> rw [e1, e2] <;>
      exact ⟨by omega, fun _ _ => by omega⟩
    · have := hhigh (by omega)
      by_cases hk' : q + 1 < k
      · have := hhigh' hk'
        generalize r * w = x at *; generalize B * w = y at *; generalize sval q * A = a at *
        generalize sval k * A = c at *; generalize sval (q + 1) * A = b at *
        rcases abs_cases (((a + x : Nat) : ℤ) - (b : Nat)) with ⟨e1, _⟩ | ⟨e1, _⟩ <;>
        rcases abs_cases (((a + x : Nat) : ℤ) - (c : Nat)) with ⟨e2, _⟩ | ⟨e2, _⟩ <;> rw [e1, e2] <;>
        exact ⟨by omega, fun _ _ => by omega⟩
      · have : k = q + 1 := by omega
        subst this
        exact ⟨le_refl _, fun h => absurd rfl h⟩
  rw [if_neg c2]
  have := m3 (by omega)
  refine ⟨?_, fun _ _ => by omega⟩
  have hq : q + q % 2 = q ∨ q + q % 2 = q + 1 := by omega
  have d1 : |((sval q * A + r * w : Nat) : ℤ) - (sval (q + q % 2) * A : Nat)| = (r * w : Nat) := by
    rcases hq with h | h <;> rw [h]
    · rw [abs_of_nonneg (by omega)]; omega
    · rw [abs_of_nonpos (by omega)]; omega
  rw [d1]
  by_cases hk : k ≤ q
  · have := hlow hk
    rw [abs_of_nonneg (by omega)]; omega
  · have := hhigh (by omega)
    rw [abs_of_nonpos (by omega)]; omega

/-- When rounding overflows single precision. -/
theorem mag32_overflow {m : Nat} (hm : m < 2047 * 2 ^ 52) :
    mag32 m < 255 * 2 ^ 23 ↔ dval m < (2 ^ 277 - 2 ^ 252) * 2 ^ 925 := by
  obtain ⟨n, s, w, hw, he, hd, hs⟩ := mag32_split hm
  have hr : n % 2 ^ s < 2 ^ s := Nat.mod_lt _ (by positivity)
  have top : sval (255 * 2 ^ 23 - 1) = 33554430 * 2 ^ 252 := by decide +kernel
  have top' : sval (255 * 2 ^ 23) = 33554432 * 2 ^ 252 := by decide +kernel
  have top'' : 2 ^ 277 - 2 ^ 252 = 33554431 * 2 ^ 252 := by decide +kernel
  rw [he, hd, top'', Nat.mul_assoc]
  unfold roundShift
  simp only
  generalize n / 2 ^ s = q at *
  generalize n % 2 ^ s = r at *
  generalize (2 : Nat) ^ s = B at *
  generalize (2 : Nat) ^ 925 = A at *
  generalize (2 : Nat) ^ 252 = P at *
  have hxy : r * w < B * w := Nat.mul_lt_mul_of_pos_right hr hw
  rcases lt_trichotomy q (255 * 2 ^ 23 - 1) with h | h | h
  · have := Nat.mul_le_mul_right A (sval_strictMono.monotone (show q + 1 ≤ 255 * 2 ^ 23 - 1 by omega))
    rw [top, Nat.mul_assoc] at this
    constructor
    · intro _; omega
    · intro _; split <;> [skip; split] <;> omega
  · have e2 : sval (q + 1) = 33554432 * P := by rw [← top', show q + 1 = 255 * 2 ^ 23 by omega]
    rw [e2, h, top, Nat.mul_assoc, Nat.mul_assoc] at hs
    rw [h, top, Nat.mul_assoc]
    have m1 : 2 * r < B → 2 * (r * w) < B * w := fun h => by
      have := Nat.mul_lt_mul_of_pos_right h hw; rw [Nat.mul_assoc] at this; exact this
    have m2 : B ≤ 2 * r → B * w ≤ 2 * (r * w) := fun h => by
      have := Nat.mul_le_mul_right w h; rw [Nat.mul_assoc] at this; exact this
    constructor
    · intro h
      by_cases c1 : 2 * r < B
      · have := m1 c1; omega
      · rw [if_neg c1] at h; split at h <;> omega
    · intro h
      by_cases c1 : 2 * r < B
      · rw [if_pos c1]; decide
      · have := m2 (by omega); omega
  · have := Nat.mul_le_mul_right A (sval_strictMono.monotone (show 255 * 2 ^ 23 ≤ q by omega))
    rw [top', Nat.mul_assoc] at this
    constructor
    · intro h'; split at h' <;> [skip; split at h'] <;> omega
    · intro h'; omega

theorem zpow_div (k : Nat) (z : ℤ) : (1 : ℚ) / 2 ^ k * 2 ^ z = 2 ^ (z - k) := by
  rw [zpow_sub₀ (by norm_num : (2 : ℚ) ≠ 0), zpow_natCast]; ring

/-- The value of a pattern as a multiple of the smallest positive one. -/
theorem ieeeValue_units (eb fb : Nat) (bits : Nat) :
    ieeeValue eb fb bits = (if ieeeNeg eb fb bits then -1 else 1) *
      ((if ieeeExp eb fb bits = 0 then ieeeFrac fb bits
        else (2 ^ fb + ieeeFrac fb bits) * 2 ^ (ieeeExp eb fb bits - 1) : Nat) : ℚ) *
      2 ^ (1 - (2 ^ (eb - 1) - 1) - fb : ℤ) := by
  unfold ieeeValue
  simp only
  generalize ieeeExp eb fb bits = e
  generalize ieeeFrac fb bits = f
  generalize (if ieeeNeg eb fb bits = true then (-1 : ℚ) else 1) = sg
  generalize (2 ^ (eb - 1) - 1 : ℤ) = bias
  rw [mul_assoc]
  congr 1
  by_cases h : e = 0
  · rw [if_pos h, if_pos h, ← zpow_div]; ring
  · rw [if_neg h, if_neg h]
    obtain ⟨E, rfl⟩ : ∃ E, e = E + 1 := ⟨e - 1, by omega⟩
    have e1 : (2 : ℚ) ^ (((E + 1 : Nat) : ℤ) - bias) = 2 ^ E * 2 ^ (1 - bias) := by
      rw [← zpow_natCast, ← zpow_add₀ (by norm_num : (2 : ℚ) ≠ 0)]; congr 1; push_cast; ring
    rw [e1, ← zpow_div, Nat.add_sub_cancel]
    push_cast
    have : (2 : ℚ) ^ fb ≠ 0 := by positivity
    field_simp

theorem ieeeValue_double (x : F64) :
    ieeeValue 11 52 x.bits = (if x.neg then -1 else 1) * (dval x.mag : ℚ) * 2 ^ (-1074 : ℤ) := by
  rw [ieeeValue_units]
  have hb := x.lt
  have h1 : ieeeNeg 11 52 x.bits = x.neg := by
    unfold ieeeNeg F64.neg; congr 1; apply propext; omega
  have h2 : ieeeExp 11 52 x.bits = x.mag / 2 ^ 52 := by unfold ieeeExp F64.mag; omega
  have h3 : ieeeFrac 52 x.bits = x.mag % 2 ^ 52 := by unfold ieeeFrac F64.mag; omega
  rw [h1, h2, h3]
  unfold dval
  norm_num

theorem ieeeValue_single {b : Nat} (hb : b < 2 ^ 32) :
    ieeeValue 8 23 b = (if 2 ^ 31 ≤ b then -1 else 1) * (sval (b % 2 ^ 31) : ℚ) * 2 ^ (-149 : ℤ) := by
  rw [ieeeValue_units]
  have h1 : ieeeNeg 8 23 b = decide (2 ^ 31 ≤ b) := by
    unfold ieeeNeg; congr 1; apply propext; omega
  have h2 : ieeeExp 8 23 b = b % 2 ^ 31 / 2 ^ 23 := by unfold ieeeExp; omega
  have h3 : ieeeFrac 23 b = b % 2 ^ 31 % 2 ^ 23 := by unfold ieeeFrac; omega
  rw [h1, h2, h3]
  unfold sval
  norm_num

end Verif
