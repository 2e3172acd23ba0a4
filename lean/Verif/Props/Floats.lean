import Verif.Lemmas.Ieee
import Verif.Props.Primitives
import Verif.Props.Parsers
/-!
# C84: floats and doubles on the wire
-/

namespace Verif
open Py StreamInput StreamOutput Spec

/-- C84, doubles: eight big-endian bytes, exactly the number's own bits, and read back bit for bit (signed zeros,
infinities and NaN payloads included). -/
theorem C84_double (x : F64) :
    RoundTrips (writeDouble x) readDouble x ∧ (writeDouble x).out.length = 8 ∧ beValue (writeDouble x).out = x.bits := by
  refine ⟨rt_double x, by simp [writeDouble], ?_⟩
  rw [beValue_eq]
  unfold writeDouble
  rw [W.emit_out, natOfBE_beDigits, Nat.mod_eq_of_lt]; exact x.lt

/-- The distance of a double from a single, in units of 2^-1074. -/
theorem single_units (k : Nat) : (sval k : ℚ) * 2 ^ (-149 : ℤ) = ((sval k * 2 ^ 925 : Nat) : ℚ) * 2 ^ (-1074 : ℤ) := by
  have : (2 : ℚ) ^ (-149 : ℤ) = 2 ^ 925 * 2 ^ (-1074 : ℤ) := by
    rw [← zpow_natCast, ← zpow_add₀ (by norm_num : (2 : ℚ) ≠ 0)]; norm_num
  rw [this, ← mul_assoc, Nat.cast_mul, Nat.cast_pow]
  rfl

/-- C84, reading floats: any four bytes are read as the double that denotes the same number; infinities and NaNs
stay what they are; the sign is kept. -/
theorem C84_read_float (bs rest : Bytes) (hl : bs.length = 4) :
    ∃ x : F64, readFloat (bs ++ rest) = .ok (x, rest) ∧
      ieeeNeg 11 52 x.bits = ieeeNeg 8 23 (beValue bs) ∧
      (ieeeFinite 8 23 (beValue bs) →
        ieeeFinite 11 52 x.bits ∧ ieeeValue 11 52 x.bits = ieeeValue 8 23 (beValue bs)) ∧
      (ieeeInfinite 8 23 (beValue bs) → ieeeInfinite 11 52 x.bits) ∧
      (ieeeNaN 8 23 (beValue bs) → ieeeNaN 11 52 x.bits) := by
  have hb : beValue bs < 2 ^ 32 := by
    rw [beValue_eq]; have := natOfBE_lt bs; rw [hl] at this; omega
  have hbs : bs = beDigits 4 (beValue bs) := by
    rw [beValue_eq, ← hl]; exact (beDigits_natOfBE bs).symm
  generalize beValue bs = b at *
  refine ⟨F64.ofSingle b hb, ?_, ?_, ?_, ?_, ?_⟩
  · rw [hbs]; exact readFloat_of_bits hb rest
  · have hn := F64.neg_ofSingle hb
    have hx := (F64.ofSingle b hb).lt
    unfold F64.neg at hn
    unfold ieeeNeg
    have : (2 ^ 63 ≤ (F64.ofSingle b hb).bits) ↔ 2 ^ 31 ≤ b := by
      rw [← decide_eq_decide]; exact hn
    congr 1; apply propext; omega
  all_goals
    have hm := F64.mag_ofSingle hb
    unfold F64.mag at hm
  · intro hf
    unfold ieeeFinite ieeeExp at hf
    have hlt : b % 2 ^ 31 < 255 * 2 ^ 23 := by omega
    have h2 := F64.magOfSingle_lt hlt
    constructor
    · unfold ieeeFinite ieeeExp
      rw [← hm] at h2
      omega
    · rw [ieeeValue_double, ieeeValue_single hb, F64.mag_ofSingle, F64.neg_ofSingle, dval_magOfSingle hlt,
        mul_assoc, mul_assoc, single_units]
      simp only [decide_eq_true_eq]
  · rintro ⟨h1, h2⟩
    unfold ieeeExp at h1
    unfold ieeeFrac at h2
    have e : b % 2 ^ 31 = 255 * 2 ^ 23 := by omega
    rw [e, F64.magOfSingle_inf] at hm
    unfold ieeeInfinite ieeeExp ieeeFrac
    omega
  · rintro ⟨h1, h2⟩
    unfold ieeeExp at h1
    unfold ieeeFrac at h2
    have e : 255 * 2 ^ 23 < b % 2 ^ 31 := by omega
    unfold F64.magOfSingle at hm
    rw [if_neg (by omega), if_neg (by omega), if_neg (by omega)] at hm
    unfold ieeeNaN ieeeExp ieeeFrac
    omega

example := C84_read_float [0x3D, 0xCC, 0xCC, 0xCD] [1] rfl

theorem nearest_signed (D S S' : Nat) (u : ℚ) (k' k : Nat) (c c' : Prop) [Decidable c] [Decidable c'] (hu : 0 < u)
    (h1 : |(D : ℤ) - (S : Nat)| ≤ |(D : ℤ) - (S' : Nat)|)
    (h2 : k' ≠ k → |(D : ℤ) - (S : Nat)| = |(D : ℤ) - (S' : Nat)| → k % 2 = 0)
    (h0 : |(D : ℤ) - (S : Nat)| ≤ |(D : ℤ) - (0 : Nat)|) (hk : S' ≠ S → k' ≠ k) :
    |(if c then -1 else 1) * (D : ℚ) * u - (if c then -1 else 1) * (S : ℚ) * u| ≤
      |(if c then -1 else 1) * (D : ℚ) * u - (if c' then -1 else 1) * (S' : ℚ) * u| ∧
    (|(if c then -1 else 1) * (D : ℚ) * u - (if c then -1 else 1) * (S : ℚ) * u| =
      |(if c then -1 else 1) * (D : ℚ) * u - (if c' then -1 else 1) * (S' : ℚ) * u| →
      (if c then -1 else 1) * (S : ℚ) * u ≠ (if c' then -1 else 1) * (S' : ℚ) * u → k % 2 = 0) := by
  have same : |(if c then -1 else 1) * (D : ℚ) * u - (if c then -1 else 1) * (S : ℚ) * u| =
      ((|(D : ℤ) - (S : Nat)| : ℤ) : ℚ) * u := by
    rw [← sub_mul, abs_mul, abs_of_pos hu]
    congr 1
    push_cast
    split
    · rw [← abs_neg]; congr 1; ring
    · congr 1; ring
  have other : ∃ z : ℤ, |(if c then -1 else 1) * (D : ℚ) * u - (if c' then -1 else 1) * (S' : ℚ) * u| = (z : ℚ) * u ∧
      ((z = |(D : ℤ) - (S' : Nat)| ∧ (c ↔ c')) ∨ (z = D + S' ∧ ¬ (c ↔ c'))) := by
    by_cases hc : c <;> by_cases hc' : c'
    · refine ⟨|(D : ℤ) - (S' : Nat)|, ?_, .inl ⟨rfl, by simp [hc, hc']⟩⟩
      rw [if_pos hc, if_pos hc', ← sub_mul, abs_mul, abs_of_pos hu]
      congr 1; push_cast; rw [← abs_neg]; congr 1; ring
    · refine ⟨D + S', ?_, .inr ⟨rfl, by simp [hc, hc']⟩⟩
      rw [if_pos hc, if_neg hc', ← sub_mul, abs_mul, abs_of_pos hu]
      congr 1; push_cast; rw [← abs_neg, abs_of_nonneg]
      · ring
      · have : (0 : ℚ) ≤ D := Nat.cast_nonneg _
        have : (0 : ℚ) ≤ S' := Nat.cast_nonneg _
        linarith
    · refine ⟨D + S', ?_, .inr ⟨rfl, by simp [hc, hc']⟩⟩
      rw [if_neg hc, if_pos hc', ← sub_mul, abs_mul, abs_of_pos hu]
      congr 1; push_cast; rw [abs_of_nonneg]
      · ring
      · have : (0 : ℚ) ≤ D := Nat.cast_nonneg _
        have : (0 : ℚ) ≤ S' := Nat.cast_nonneg _
        linarith
    · refine ⟨|(D : ℤ) - (S' : Nat)|, ?_, .inl ⟨rfl, by simp [hc, hc']⟩⟩
      rw [if_neg hc, if_neg hc', ← sub_mul, abs_mul, abs_of_pos hu]
      congr 1; push_cast; congr 1; ring
  obtain ⟨z, hz, hcase⟩ := other
  rw [same, hz]
  have hle : |(D : ℤ) - (S' : Nat)| ≤ D + S' := by
    rcases abs_cases ((D : ℤ) - (S' : Nat)) with ⟨e, _⟩ | ⟨e, _⟩ <;> rw [e] <;> omega
  constructor
  · have : |(D : ℤ) - (S : Nat)| ≤ z := by
      rcases hcase with ⟨e, _⟩ | ⟨e, _⟩ <;> rw [e] <;> omega
    exact mul_le_mul_of_nonneg_right (by exact_mod_cast this) hu.le
  · intro he hne
    have hze : |(D : ℤ) - (S : Nat)| = z := by
      have := mul_right_cancel₀ hu.ne' he
      exact_mod_cast this
    rcases hcase with ⟨e, hc⟩ | ⟨e, hc⟩
    · apply h2 (hk _) (hze.trans e)
      intro hs
      apply hne
      rw [hs]
      congr 2
      simp only [hc]
    · by_cases hs : S' = S
      · exfalso
        apply hne
        have hS : S = 0 := by
          subst hs
          rcases abs_cases ((D : ℤ) - (S' : Nat)) with ⟨e1, _⟩ | ⟨e1, _⟩ <;>
          rcases abs_cases ((D : ℤ) - (0 : Nat)) with ⟨e2, _⟩ | ⟨e2, _⟩ <;> omega
        rw [hs, hS]; simp
      · exact h2 (hk hs) (by omega)

/-- C84, writing floats that are finite: when the magnitude is below 2^128 - 2^103 (half a unit above the largest
single), exactly four bytes, a finite single of the same sign that no other finite single is nearer than, the one
with an even last bit when two are equally near; otherwise OverflowError and nothing is written. -/
theorem C84_write_float (x : F64) (hf : ieeeFinite 11 52 x.bits) :
    (|ieeeValue 11 52 x.bits| < 2 ^ 128 - 2 ^ 103 →
      (writeFloat x).err = none ∧ (writeFloat x).out.length = 4 ∧
      let b := beValue (writeFloat x).out
      ieeeFinite 8 23 b ∧ ieeeNeg 8 23 b = ieeeNeg 11 52 x.bits ∧
      ∀ b', b' < 2 ^ 32 → ieeeFinite 8 23 b' →
        |ieeeValue 11 52 x.bits - ieeeValue 8 23 b| ≤ |ieeeValue 11 52 x.bits - ieeeValue 8 23 b'| ∧
        (|ieeeValue 11 52 x.bits - ieeeValue 8 23 b| = |ieeeValue 11 52 x.bits - ieeeValue 8 23 b'| →
          ieeeValue 8 23 b ≠ ieeeValue 8 23 b' → b % 2 = 0)) ∧
    (2 ^ 128 - 2 ^ 103 ≤ |ieeeValue 11 52 x.bits| → writeFloat x = ⟨[], some .overflow⟩) := by
  have hx := x.lt
  have hm : x.mag < 2047 * 2 ^ 52 := by
    unfold ieeeFinite ieeeExp at hf; unfold F64.mag; omega
  have hnan : x.isNaN = false := by unfold F64.isNaN; rw [decide_eq_false_iff_not]; omega
  have hu : (0 : ℚ) < 2 ^ (-1074 : ℤ) := zpow_pos (by norm_num) _
  have habs : |ieeeValue 11 52 x.bits| = (dval x.mag : ℚ) * 2 ^ (-1074 : ℤ) := by
    rw [ieeeValue_double, mul_assoc, abs_mul]
    have : |(if x.neg = true then (-1 : ℚ) else 1)| = 1 := by split <;> simp
    rw [this, one_mul, abs_of_nonneg (mul_nonneg (Nat.cast_nonneg _) hu.le)]
  have hlim : (2 : ℚ) ^ 128 - 2 ^ 103 = (((2 ^ 277 - 2 ^ 252) * 2 ^ 925 : Nat) : ℚ) * 2 ^ (-1074 : ℤ) := by
    have h1 : (2 : Nat) ^ 277 - 2 ^ 252 = 33554431 * 2 ^ 252 := by decide +kernel
    have h2 : (2 : ℚ) ^ 252 * 2 ^ 925 * 2 ^ (-1074 : ℤ) = 2 ^ 103 := by
      rw [← pow_add, ← zpow_natCast, ← zpow_add₀ (by norm_num : (2 : ℚ) ≠ 0)]
      rw [show ((252 + 925 : Nat) : ℤ) + -1074 = (103 : Nat) by norm_num, zpow_natCast]
    rw [h1, Nat.cast_mul, Nat.cast_mul, Nat.cast_pow, Nat.cast_pow, mul_assoc, mul_assoc,
      ← mul_assoc ((2 : Nat) ^ 252 : ℚ), show ((2 : Nat) : ℚ) = 2 from rfl, h2]
    norm_num
  have hover : |ieeeValue 11 52 x.bits| < 2 ^ 128 - 2 ^ 103 ↔ F64.mag32 x.mag < 255 * 2 ^ 23 := by
    rw [habs, hlim, mul_lt_mul_iff_left₀ hu, Nat.cast_lt, mag32_overflow hm]
  constructor
  · intro hlt
    have hk := hover.1 hlt
    have hw : writeFloat x = W.emit (beDigits 4 ((if x.neg then 2 ^ 31 else 0) + F64.mag32 x.mag)) := by
      unfold writeFloat F64.toSingle
      simp only [hnan, Bool.false_eq_true, if_false]
      rw [if_neg (by omega), if_pos hk]
    have hbv : beValue (writeFloat x).out = (if x.neg then 2 ^ 31 else 0) + F64.mag32 x.mag := by
      rw [hw, W.emit_out, beValue_eq, natOfBE_beDigits, Nat.mod_eq_of_lt]
      split <;> omega
    refine ⟨by rw [hw]; rfl, by rw [hw]; simp, ?_⟩
    simp only [hbv]
    set k := F64.mag32 x.mag with hkdef
    set b := (if x.neg then 2 ^ 31 else 0) + k with hb
    have hb32 : b < 2 ^ 32 := by rw [hb]; split <;> omega
    have hbk : b % 2 ^ 31 = k := by rw [hb]; split <;> omega
    have hbn : (2 ^ 31 ≤ b) ↔ x.neg = true := by
      rw [hb]
      cases hxn : x.neg
      · simp; omega
      · simp
    refine ⟨?_, ?_, fun b' hb' hf' => ?_⟩
    · unfold ieeeFinite ieeeExp
      omega
    · unfold ieeeNeg
      unfold F64.neg at hbn
      congr 1; apply propext
      rw [decide_eq_true_eq] at hbn
      omega
    · have e0 : ieeeValue 11 52 x.bits = (if x.neg then -1 else 1) * (dval x.mag : ℚ) * 2 ^ (-1074 : ℤ) :=
        ieeeValue_double x
      have e1 : ieeeValue 8 23 b =
          (if x.neg then -1 else 1) * ((sval k * 2 ^ 925 : Nat) : ℚ) * 2 ^ (-1074 : ℤ) := by
        rw [ieeeValue_single hb32, hbk, mul_assoc, single_units, ← mul_assoc]
        congr 2
        simp only [hbn]
      have e2 : ieeeValue 8 23 b' =
          (if 2 ^ 31 ≤ b' then -1 else 1) * ((sval (b' % 2 ^ 31) * 2 ^ 925 : Nat) : ℚ) * 2 ^ (-1074 : ℤ) := by
        rw [ieeeValue_single hb', mul_assoc, single_units, ← mul_assoc]
      rw [e0, e1, e2]
      have near := mag32_nearest hm (b' % 2 ^ 31)
      have near0 := mag32_nearest hm 0
      rw [← hkdef] at near near0
      have z0 : sval 0 = 0 := by decide
      rw [z0, Nat.zero_mul] at near0
      have hpar : b % 2 = k % 2 := by rw [hb]; split <;> omega
      rw [hpar]
      have hk' : sval (b' % 2 ^ 31) * 2 ^ 925 ≠ sval k * 2 ^ 925 → b' % 2 ^ 31 ≠ k := fun h e => h (by rw [e])
      generalize sval (b' % 2 ^ 31) * 2 ^ 925 = S' at *
      generalize sval k * 2 ^ 925 = S at *
      generalize dval x.mag = D at *
      generalize (2 : ℚ) ^ (-1074 : ℤ) = u at *
      exact nearest_signed D S S' u (b' % 2 ^ 31) k _ _ hu near.1 near.2 near0.1 hk'
  · intro hge
    have hk : ¬ F64.mag32 x.mag < 255 * 2 ^ 23 := fun h => by
      have := hover.2 h; linarith
    unfold writeFloat F64.toSingle
    simp only [hnan, Bool.false_eq_true, if_false]
    rw [if_neg (by omega), if_neg hk]
    rfl

example := C84_write_float ⟨0x3FB999999999999A, by decide⟩ (by unfold Spec.ieeeFinite Spec.ieeeExp; decide +kernel)

/-- C84, writing infinities and NaNs: four bytes of the same kind and sign. -/
theorem C84_write_special (x : F64) :
    (ieeeInfinite 11 52 x.bits ∨ ieeeNaN 11 52 x.bits) →
    (writeFloat x).err = none ∧ (writeFloat x).out.length = 4 ∧
      let b := beValue (writeFloat x).out
      ieeeNeg 8 23 b = ieeeNeg 11 52 x.bits ∧
      (ieeeInfinite 11 52 x.bits → ieeeInfinite 8 23 b) ∧ (ieeeNaN 11 52 x.bits → ieeeNaN 8 23 b) := by
  intro h
  have hx := x.lt
  have main : ∃ r, x.toSingle = .ok ((if x.neg then 2 ^ 31 else 0) + r) ∧ 255 * 2 ^ 23 ≤ r ∧ r < 2 ^ 31 ∧
      (ieeeInfinite 11 52 x.bits → r = 255 * 2 ^ 23) ∧ (ieeeNaN 11 52 x.bits → r ≠ 255 * 2 ^ 23) := by
    by_cases hn : ieeeNaN 11 52 x.bits
    · have hnan : x.isNaN = true := by
        unfold ieeeNaN ieeeExp ieeeFrac at hn
        unfold F64.isNaN F64.mag; rw [decide_eq_true_eq]; omega
      refine ⟨255 * 2 ^ 23 + 2 ^ 22 + (x.mag / 2 ^ 29) % 2 ^ 22, ?_, by omega, by omega, fun hi => ?_, fun _ => by omega⟩
      · unfold F64.toSingle
        rw [if_pos hnan]
        simp only [Nat.add_assoc]
      · unfold ieeeNaN at hn; unfold ieeeInfinite at hi; exact absurd hi.2 hn.2
    · have hi : ieeeInfinite 11 52 x.bits := h.resolve_right hn
      have hm : x.mag = 2047 * 2 ^ 52 := by
        unfold ieeeInfinite ieeeExp ieeeFrac at hi
        unfold F64.mag; omega
      have hnan : x.isNaN = false := by
        unfold F64.isNaN; rw [decide_eq_false_iff_not]; omega
      refine ⟨255 * 2 ^ 23, ?_, by omega, by omega, fun _ => rfl, fun h' => absurd h' hn⟩
      unfold F64.toSingle
      simp only [hnan, Bool.false_eq_true, if_false]
      rw [if_pos hm]
  obtain ⟨r, ht, hr1, hr2, hr3, hr4⟩ := main
  have hw : writeFloat x = W.emit (beDigits 4 ((if x.neg then 2 ^ 31 else 0) + r)) := by
    unfold writeFloat; rw [ht]
  have hbv : beValue (writeFloat x).out = (if x.neg then 2 ^ 31 else 0) + r := by
    rw [hw, W.emit_out, beValue_eq, natOfBE_beDigits, Nat.mod_eq_of_lt]
    split <;> omega
  refine ⟨by rw [hw]; rfl, by rw [hw]; simp, ?_⟩
  simp only [hbv]
  refine ⟨?_, fun hi => ?_, fun hn => ?_⟩
  · unfold ieeeNeg
    congr 1; apply propext
    cases hxn : x.neg
    · unfold F64.neg at hxn; rw [decide_eq_false_iff_not] at hxn
      simp only [Bool.false_eq_true, if_false]; omega
    · unfold F64.neg at hxn; rw [decide_eq_true_eq] at hxn
      simp only [if_true]; omega
  · have := hr3 hi
    unfold ieeeInfinite ieeeExp ieeeFrac
    split <;> omega
  · have := hr4 hn
    unfold ieeeNaN ieeeExp ieeeFrac
    split <;> omega

/-- 0.1 is finite and in range; what is written for it is the nearest single, 0.100000001490116... -/
example : ieeeFinite 11 52 0x3FB999999999999A ∧ (writeFloat ⟨0x3FB999999999999A, by decide⟩).out = [0x3D, 0xCC, 0xCC, 0xCD] := by
  unfold ieeeFinite ieeeExp; decide +kernel
/-- 1e39 is too large for single precision. -/
example : ieeeFinite 11 52 0x48078287F49C4A1D ∧ (writeFloat ⟨0x48078287F49C4A1D, by decide⟩).err = some .overflow := by
  unfold ieeeFinite ieeeExp; decide +kernel

end Verif
