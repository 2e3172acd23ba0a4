import Mathlib.Tactic.Ring
import Mathlib.Tactic.NormNum
import Mathlib.Data.Nat.Log
import Verif.Py.Float
/-! Lemmas about the conversion between binary64 and binary32. -/

namespace Verif.Py
namespace F64

theorem roundShift_exact (q k : Nat) : roundShift (q * 2 ^ k) k = q := by
  unfold roundShift
  have h1 : q * 2 ^ k / 2 ^ k = q := Nat.mul_div_cancel _ (Nat.two_pow_pos k)
  have h2 : q * 2 ^ k % 2 ^ k = 0 := Nat.mul_mod_left _ _
  simp only [h1, h2]
  rw [if_pos (by simp)]

theorem log2_bounds {m : Nat} (h : m ≠ 0) : 2 ^ Nat.log2 m ≤ m ∧ m < 2 ^ (Nat.log2 m + 1) :=
  ⟨Nat.log2_self_le h, Nat.lt_log2_self⟩

/-- The binary64 magnitude of a finite or infinite binary32 number, converted back. -/
theorem mag32_magOfSingle {m : Nat} (h : m < 255 * 2 ^ 23) : mag32 (magOfSingle m) = m := by
  unfold magOfSingle
  by_cases h1 : m < 2 ^ 23
  · rw [if_pos h1]
    by_cases h0 : m = 0
    · subst h0
      have := roundShift_exact 0 (926 - max 0 1)
      rw [Nat.zero_mul] at this
      rw [if_pos rfl]
      unfold mag32
      simp only [Nat.zero_div, Nat.zero_mod]
      rw [if_pos (by omega), if_pos trivial]
      exact this
    · rw [if_neg h0]
      obtain ⟨hl1, hl2⟩ := log2_bounds h0
      have hk : Nat.log2 m < 23 := by
        by_contra hge
        have : 2 ^ 23 ≤ 2 ^ Nat.log2 m := Nat.pow_le_pow_right (by decide) (by omega)
        omega
      generalize Nat.log2 m = k at hl1 hl2 hk
      have hf : (m - 2 ^ k) * 2 ^ (52 - k) < 2 ^ 52 := by
        have h2 : m - 2 ^ k < 2 ^ k := by rw [Nat.pow_succ] at hl2; omega
        calc (m - 2 ^ k) * 2 ^ (52 - k) < 2 ^ k * 2 ^ (52 - k) :=
              Nat.mul_lt_mul_of_pos_right h2 (Nat.two_pow_pos _)
          _ = 2 ^ 52 := by rw [← Nat.pow_add]; congr 1; omega
      unfold mag32
      have hd : ((k + 874) * 2 ^ 52 + (m - 2 ^ k) * 2 ^ (52 - k)) / 2 ^ 52 = k + 874 := by
        rw [Nat.mul_comm (k + 874), Nat.mul_add_div (Nat.two_pow_pos 52), Nat.div_eq_of_lt hf, Nat.add_zero]
      have hm : ((k + 874) * 2 ^ 52 + (m - 2 ^ k) * 2 ^ (52 - k)) % 2 ^ 52 = (m - 2 ^ k) * 2 ^ (52 - k) := by
        rw [Nat.mul_comm (k + 874), Nat.mul_add_mod, Nat.mod_eq_of_lt hf]
      simp only [hd, hm]
      rw [if_pos (by omega), if_neg (by omega)]
      have hsh : 926 - max (k + 874) 1 = 52 - k := by omega
      rw [hsh]
      have : 2 ^ 52 + (m - 2 ^ k) * 2 ^ (52 - k) = m * 2 ^ (52 - k) := by
        have e : 2 ^ 52 = 2 ^ k * 2 ^ (52 - k) := by rw [← Nat.pow_add, Nat.add_sub_cancel' (by omega)]
        have e2 : m = 2 ^ k + (m - 2 ^ k) := by omega
        generalize m - 2 ^ k = r at e2
        rw [e, e2, Nat.add_mul]
      rw [this, roundShift_exact]
  · rw [if_neg h1, if_pos h]
    unfold mag32
    have hd : 896 < (m * 2 ^ 29 + 896 * 2 ^ 52) / 2 ^ 52 := by
      rw [Nat.lt_div_iff_mul_lt (by decide)]
      omega
    simp only
    rw [if_neg (by omega), Nat.add_sub_cancel, roundShift_exact]

theorem magOfSingle_lt {m : Nat} (h : m < 255 * 2 ^ 23) : magOfSingle m < 2047 * 2 ^ 52 := by
  unfold magOfSingle
  by_cases h1 : m < 2 ^ 23
  · rw [if_pos h1]
    by_cases h0 : m = 0
    · subst h0; decide
    · rw [if_neg h0]
      obtain ⟨hl1, hl2⟩ := log2_bounds h0
      have hk : Nat.log2 m < 23 := by
        by_contra hge
        have : 2 ^ 23 ≤ 2 ^ Nat.log2 m := Nat.pow_le_pow_right (by decide) (by omega)
        omega
      generalize Nat.log2 m = k at hl1 hl2 hk
      have hf : (m - 2 ^ k) * 2 ^ (52 - k) < 2 ^ 52 := by
        have h2 : m - 2 ^ k < 2 ^ k := by rw [Nat.pow_succ] at hl2; omega
        calc (m - 2 ^ k) * 2 ^ (52 - k) < 2 ^ k * 2 ^ (52 - k) :=
              Nat.mul_lt_mul_of_pos_right h2 (Nat.two_pow_pos _)
          _ = 2 ^ 52 := by rw [← Nat.pow_add]; congr 1; omega
      omega
  · rw [if_neg h1, if_pos h]
    omega

theorem magOfSingle_inf : magOfSingle (255 * 2 ^ 23) = 2047 * 2 ^ 52 := by decide

theorem magOfSingle_lt' {m : Nat} (h : m < 2 ^ 31) : magOfSingle m < 2 ^ 63 := by
  rcases Nat.lt_trichotomy m (255 * 2 ^ 23) with h1 | h1 | h1
  · have := magOfSingle_lt h1; omega
  · rw [h1, magOfSingle_inf]; decide
  · unfold magOfSingle
    rw [if_neg (by omega), if_neg (by omega), if_neg (by omega)]
    have := Nat.mod_lt m (Nat.two_pow_pos 22)
    omega

theorem ofSingleBits_lt {b : Nat} (_ : b < 2 ^ 32) : ofSingleBits b < 2 ^ 64 := by
  unfold ofSingleBits
  have := magOfSingle_lt' (m := b % 2 ^ 31) (Nat.mod_lt _ (by decide))
  split <;> omega

/-- The double equal to a single. -/
def ofSingle (b : Nat) (h : b < 2 ^ 32) : F64 := ⟨ofSingleBits b, ofSingleBits_lt h⟩

theorem mag_ofSingle {b : Nat} (h : b < 2 ^ 32) : (ofSingle b h).mag = magOfSingle (b % 2 ^ 31) := by
  have := magOfSingle_lt' (m := b % 2 ^ 31) (Nat.mod_lt _ (by decide))
  unfold mag ofSingle ofSingleBits
  simp only
  split <;> omega

theorem neg_ofSingle {b : Nat} (h : b < 2 ^ 32) : (ofSingle b h).neg = decide (2 ^ 31 ≤ b) := by
  have := magOfSingle_lt' (m := b % 2 ^ 31) (Nat.mod_lt _ (by decide))
  unfold neg ofSingle ofSingleBits
  simp only
  split
  · next hh => simp only [hh, decide_true, decide_eq_true_eq]; omega
  · next hh => simp only [hh, decide_false, decide_eq_false_iff_not]; omega

/-- Converting a single to a double and back gives the same bits, unless it is NaN. -/
theorem toSingle_ofSingle {b : Nat} (h : b < 2 ^ 32) (hn : b % 2 ^ 31 ≤ 255 * 2 ^ 23) :
    (ofSingle b h).toSingle = .ok b := by
  have hsign : (if (ofSingle b h).neg then 2 ^ 31 else 0) + b % 2 ^ 31 = b := by
    rw [neg_ofSingle]
    split
    · next hh => simp only [decide_eq_true_eq] at hh; omega
    · next hh => simp only [decide_eq_true_eq] at hh; omega
  unfold toSingle
  simp only [isNaN, mag_ofSingle h]
  rcases Nat.lt_or_ge (b % 2 ^ 31) (255 * 2 ^ 23) with hl | hl
  · have hlt := magOfSingle_lt hl
    rw [if_neg (by simp only [decide_eq_true_eq]; omega), if_neg (by omega), mag32_magOfSingle hl, if_pos hl, hsign]
  · have he : b % 2 ^ 31 = 255 * 2 ^ 23 := by omega
    rw [he, magOfSingle_inf, if_neg (by simp), if_pos rfl, ← he, hsign]

theorem roundShift_le (n k : Nat) : roundShift n k ≤ n / 2 ^ k + 1 := by
  unfold roundShift
  simp only
  split
  · omega
  · split
    · omega
    · have := Nat.mod_lt (n / 2 ^ k) (by decide : 0 < 2); omega

theorem toSingle_lt {x : F64} {b : Nat} (h : x.toSingle = .ok b) : b < 2 ^ 32 := by
  unfold toSingle at h
  simp only at h
  split at h
  · simp only [Except.ok.injEq] at h
    have := Nat.mod_lt (x.mag / 2 ^ 29) (Nat.two_pow_pos 22)
    subst h; split <;> omega
  · split at h
    · simp only [Except.ok.injEq] at h; subst h; split <;> decide
    · split at h
      · simp only [Except.ok.injEq] at h; subst h; split <;> omega
      · simp at h

end F64
end Verif.Py
