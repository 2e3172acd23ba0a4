import Mathlib.Tactic.Linarith
import Mathlib.Algebra.Ring.Int.Parity
import Verif.Spec.Version
import Mathlib.Tactic.IntervalCases
import Verif.Lemmas.Values
import Verif.Lemmas.VarintSpec
import Verif.Model.VersionDisplay
/-!
# C17, C18: versions
-/

namespace Verif
open Py StreamInput StreamOutput

/-- The floating-point path computes the integer component exactly. -/
theorem component_div (fd : FloatDiv) {n d : Nat} (hn : n < 2 ^ 32) (hd : 0 < d) (hd' : d ≤ 1000000) :
    Version.component (fd.div n d) = ((n / d % 100 : Nat) : Int) := by
  set q := n / d with hq
  have hdq : (0 : ℚ) < d := by exact_mod_cast hd
  have hfloor : ((q : ℚ) ≤ fd.div n d) ∧ fd.div n d < q + 1 := by
    have hqd : q * d ≤ n := Nat.div_mul_le_self n d
    have hlt : n < (q + 1) * d := by
      rw [hq, Nat.add_mul, one_mul]; exact Nat.lt_div_mul_add hd
    by_cases hdvd : d ∣ n
    · have hqs : q ≤ 2 ^ 53 := le_trans (Nat.div_le_self n d) (by omega)
      rw [fd.exact n d hd (by omega) (by omega) hdvd hqs]
      obtain ⟨c, rfl⟩ := hdvd
      have : q = c := by rw [hq, Nat.mul_div_cancel_left _ hd]
      rw [this]; push_cast
      rw [mul_div_cancel_left₀ _ hdq.ne']
      constructor <;> linarith
    · have herr := fd.err n d hd (by omega) (by omega)
      rw [abs_le] at herr
      have hne : q * d ≠ n := fun h => hdvd ⟨q, by rw [mul_comm]; exact h.symm⟩
      have hx1 : (q : ℚ) + 1 / d ≤ (n : ℚ) / d := by
        rw [le_div_iff₀ hdq, add_mul, one_div, inv_mul_cancel₀ hdq.ne']
        exact_mod_cast (show q * d + 1 ≤ n by omega)
      have hx2 : (n : ℚ) / d ≤ q + 1 - 1 / d := by
        rw [div_le_iff₀ hdq, sub_mul, one_div, inv_mul_cancel₀ hdq.ne', le_sub_iff_add_le]
        exact_mod_cast (show n + 1 ≤ (q + 1) * d by omega)
      have hsmall : (n : ℚ) / d * (1 / 2 ^ 53) < 1 / d := by
        rw [div_mul_eq_mul_div, div_lt_div_iff_of_pos_right hdq]
        have : (n : ℚ) < 2 ^ 32 := by exact_mod_cast hn
        rw [mul_one_div, div_lt_one (by positivity)]
        refine this.trans (by norm_num)
      constructor <;> linarith
  have h100 : ⌊fd.div n d / 100⌋ = ((q / 100 : Nat) : Int) := by
    rw [Int.floor_eq_iff]
    have h1 : ((q / 100 : Nat) : ℚ) * 100 ≤ q := by exact_mod_cast Nat.div_mul_le_self q 100
    have h2 : (q : ℚ) + 1 ≤ (((q / 100 : Nat) : ℚ) + 1) * 100 := by
      exact_mod_cast (show q + 1 ≤ (q / 100 + 1) * 100 by omega)
    rw [le_div_iff₀ (by norm_num), div_lt_iff₀ (by norm_num)]
    simp only [Int.cast_natCast]
    constructor <;> linarith [hfloor.1, hfloor.2]
  unfold Version.component
  rw [h100, Int.floor_eq_iff]
  have h3 : (q : ℚ) = 100 * ((q / 100 : Nat) : ℚ) + ((q % 100 : Nat) : ℚ) := by
    exact_mod_cast (Nat.div_add_mod q 100).symm
  simp only [Int.cast_natCast]
  constructor <;> linarith [hfloor.1, hfloor.2]

theorem and_mask {n : Nat} (hn : n < 2 ^ 32) : n &&& 0xF7FFFFFF = clear27 n := by
  apply Nat.eq_of_testBit_eq
  intro j
  unfold clear27
  have hm : (0xF7FFFFFF : Nat) = 2 ^ 28 * 15 + (2 ^ 27 - 1) := by decide
  have h15 : (15 : Nat) = 2 ^ 4 - 1 := by decide
  rw [Nat.testBit_and, hm, Nat.mul_comm (n / 2 ^ 28), Nat.testBit_two_pow_mul_add _ (by decide),
    Nat.testBit_two_pow_mul_add _ (by have := Nat.mod_lt n (show 0 < 2 ^ 27 by decide); omega)]
  have hb : n.testBit j = if j < 28 then n.testBit j else (n / 2 ^ 28).testBit (j - 28) := by
    split_ifs with h
    · rfl
    · rw [Nat.testBit_div_two_pow]; congr 1; omega
  rw [hb]
  split_ifs with h
  · rw [Nat.testBit_two_pow_sub_one, Nat.testBit_mod_two_pow, Bool.and_comm]
  · rw [h15, Nat.testBit_two_pow_sub_one]
    by_cases h4 : j - 28 < 4
    · simp [h4]
    · have : (n / 2 ^ 28).testBit (j - 28) = false := by
        apply Nat.testBit_lt_two_pow
        have : 2 ^ 4 ≤ 2 ^ (j - 28) := Nat.pow_le_pow_right (by decide) (by omega)
        omega
      rw [this]; simp [h4]

theorem displayId_nat {n : Nat} (hn : n < 2 ^ 32) : (⟨(n : Int)⟩ : Version).displayId = clear27 n := by
  rw [← and_mask hn]; rfl

theorem version_new_nat (n : Nat) : Version.new n = ⟨((n ^^^ 0x08000000 : Nat) : Int)⟩ := rfl

theorem clear27_xor {n : Nat} (hn : n < 2 ^ 32) : clear27 (n ^^^ 0x08000000) = clear27 n := by
  rw [← and_mask hn, ← and_mask (Nat.xor_lt_two_pow hn (by decide)), Nat.and_xor_distrib_right]
  simp

theorem clear27_lt {n : Nat} (hn : n < 2 ^ 32) : clear27 n < 2 ^ 32 := by unfold clear27; omega

theorem clear27_small {n : Nat} (hn : n < 2 ^ 27) : clear27 n = n := by unfold clear27; omega

/-- Any version object with a 32-bit id, however obtained, displays the components of its id with
the marker bit cleared: the floating-point path never truncates to a wrong component. -/
theorem C17_display (fd : FloatDiv) (n : Nat) (hn : n < 2 ^ 32) :
    let v : Version := ⟨(n : Int)⟩
    (v.major fd, v.minor fd, v.revision fd, v.build) =
      (((components (clear27 n)).1 : Int), ((components (clear27 n)).2.1 : Int),
       ((components (clear27 n)).2.2.1 : Int), ((components (clear27 n)).2.2.2 : Int)) := by
  simp only [Version.major, Version.minor, Version.revision, Version.build, displayId_nat hn,
    components]
  have h := clear27_lt hn
  rw [component_div fd h (by decide) (by decide), component_div fd h (by decide) (by decide),
    component_div fd h (by decide) (by decide)]

example := C17_display ieeeDiv 3000099 (by decide)

/-- `str(Version(n))` is `major.minor.revision.build` of `n`, for every release number `n` (any
number below 2^27, i.e. every major version up to 134). -/
theorem C17_string (fd : FloatDiv) (n : Nat) (hn : n < 2 ^ 27) :
    (Version.new n).str fd =
      s!"{n / 1000000 % 100}.{n / 10000 % 100}.{n / 100 % 100}.{n % 100}" := by
  have hn' : n < 2 ^ 32 := by omega
  have h := C17_display fd (n ^^^ 0x08000000) (Nat.xor_lt_two_pow hn' (by decide))
  rw [clear27_xor hn', clear27_small hn] at h
  simp only [components, Prod.mk.injEq] at h
  unfold Version.str
  rw [version_new_nat, h.1, h.2.1, h.2.2.1, h.2.2.2]
  rfl

/-- Distinct numbers are distinct versions, and the header's 4-byte form reads back the same
version, whatever follows. -/
theorem C17_identity (m n : Nat) (hn : n < 2 ^ 32) :
    (Version.new m = Version.new n → m = n) ∧
    (Version.new n).toBytes.err = none ∧ (Version.new n).toBytes.out.length = 4 ∧
    Version.fromBytes (Version.new n).toBytes.out = Version.new n := by
  refine ⟨fun h => ?_, ?_⟩
  · have h' : Int.xor (m : Int) Version.MASK = Int.xor (n : Int) Version.MASK := by
      simpa [Version.new] using h
    have := congrArg (fun z => Int.xor z Version.MASK) h'
    simp only [int_xor_xor] at this
    exact_mod_cast this
  · have hx : n ^^^ 0x08000000 < 2 ^ 32 := Nat.xor_lt_two_pow hn (by decide)
    rw [version_new_nat]
    generalize n ^^^ 0x08000000 = x at hx ⊢
    have : (⟨(x : Int)⟩ : Version).toBytes = W.emit (beDigits 4 x) := by
      unfold Version.toBytes toBytesUnsigned
      have h1 : (0 : Int) ≤ (x : Int) ∧ (x : Int) < 256 ^ 4 := by omega
      rw [if_pos h1]; simp
    rw [this]
    refine ⟨rfl, by simp, ?_⟩
    simp only [Version.fromBytes, fromBytesUnsigned, W.emit_out, natOfBE_beDigits, Version.mk.injEq]
    rw [Nat.mod_eq_of_lt (show x < 256 ^ 4 by omega)]

example := C17_identity 2100099 3000099 (by decide)

/-- The v_int wire form reads back the same version, whatever follows. -/
theorem C17_wire (n : Nat) (hn : n < 2 ^ 32) :
    RoundTrips (writeVersion (Version.new n)) readVersion (Version.new n) := by
  have hx : n ^^^ 0x08000000 < 2 ^ 32 := Nat.xor_lt_two_pow hn (by decide)
  rw [version_new_nat]
  exact rt_version (by simp) (by show ((_ : Nat) : Int) < _; omega)

example := C17_wire 0x082DCB83 (by decide)

example : (Version.new 3000099).str ieeeDiv = "3.0.0.99" :=
  (C17_string ieeeDiv 3000099 (by decide)).trans (by decide +kernel)

/-! ## C18 -/

theorem land_mask_nat (n : Nat) : Int.land (n : Int) Version.MASK ≠ 0 ↔ n.testBit 27 = true := by
  have : Int.land (n : Int) Version.MASK = ((n &&& 2 ^ 27 : Nat) : Int) := rfl
  rw [this, Nat.and_two_pow]
  cases h : n.testBit 27 <;> simp

/-- `version_size` is exactly right unless the marker bit is set on an id of 2^28 or more. -/
theorem C18_characterisation (v : Version) (h : 0 ≤ v.id) :
    (writeVersion v).err = none ∧
    ((writeVersion v).out.length = versionSize v ↔
      (v.id.toNat.testBit 27 = true → v.id < 2 ^ 28)) := by
  obtain ⟨n, hn⟩ : ∃ n : Nat, v.id = n := ⟨v.id.toNat, by omega⟩
  unfold writeVersion versionSize
  rw [hn]
  refine ⟨by simp, ?_⟩
  rw [writeVInt_nat_out, vIntSize_nat, Int.toNat_natCast]
  by_cases hb : n.testBit 27 = true
  · rw [if_pos ((land_mask_nat n).2 hb)]
    have hge : 2 ^ 27 ≤ n := Nat.ge_two_pow_of_testBit hb
    have h4 := varint_length_le 3 n
    have h3 := varint_length_le 2 n
    simp only [hb, true_implies]
    norm_num at h4 h3 ⊢
    omega
  · rw [if_neg (fun h => hb ((land_mask_nat n).1 h))]
    simp [hb]

example := C18_characterisation ⟨2 ^ 28 + 2 ^ 27⟩ (by decide)

/-- For every release number (any number below 2^27), and for the legacy form of the same number,
`version_size` is the number of bytes `write_version` emits. -/
theorem C18_release_numbers (n : Nat) (hn : n < 2 ^ 27) :
    (writeVersion (Version.new n)).out.length = versionSize (Version.new n) ∧
    (writeVersion ⟨(n : Int)⟩).out.length = versionSize ⟨(n : Int)⟩ := by
  have hx : n ^^^ 0x08000000 < 2 ^ 28 := Nat.xor_lt_two_pow (by omega) (by decide)
  constructor
  · rw [version_new_nat]
    refine ((C18_characterisation _ (by simp)).2).2 (fun _ => ?_)
    show ((_ : Nat) : Int) < _; omega
  · refine ((C18_characterisation _ (by simp)).2).2 (fun _ => ?_)
    show ((_ : Nat) : Int) < _; omega

example := C18_release_numbers 3000099 (by decide)

/-- Outside that range the prediction is wrong (the id a 2^28 release would have). -/
theorem C18_beyond : (writeVersion (Version.new (2 ^ 28))).out.length = 5 ∧
    versionSize (Version.new (2 ^ 28)) = 4 := by decide +kernel

/-- C17: the rounding of the divisions in `Version` is the IEEE one: to the nearest, and to the even one of two that are equally near. -/
theorem C17_rounding (x : ℚ) (n : Int) : roundHalfEven x = n ↔
    (∀ m : Int, |x - n| ≤ |x - m|) ∧ ((∃ m : Int, m ≠ n ∧ |x - n| = |x - m|) → n % 2 = 0) := by
  have key : ∀ n : Int, ((∀ m : Int, |x - n| ≤ |x - m|) ∧ ((∃ m : Int, m ≠ n ∧ |x - n| = |x - m|) → n % 2 = 0)) ↔
      (-(1 / 2) ≤ x - n ∧ x - n ≤ 1 / 2 ∧ ((x - n = 1 / 2 ∨ x - n = -(1 / 2)) → n % 2 = 0)) := by
    intro n
    constructor
    · rintro ⟨h1, h2⟩
      have a := h1 (n + 1)
      have b := h1 (n - 1)
      push_cast at a b
      refine ⟨?_, ?_, ?_⟩
      · by_contra hc
        rw [abs_of_neg (by linarith)] at b
        have : |x - (n - 1)| < -(x - n) := by rw [abs_lt]; constructor <;> linarith
        linarith
      · by_contra hc
        rw [abs_of_pos (by linarith)] at a
        have : |x - (n + 1)| < x - n := by rw [abs_lt]; constructor <;> linarith
        linarith
      · rintro (h | h)
        · refine h2 ⟨n + 1, by omega, ?_⟩
          push_cast
          rw [h, show x - (n + 1) = -(1 / 2) by linarith, abs_neg]
        · refine h2 ⟨n - 1, by omega, ?_⟩
          push_cast
          rw [h, show x - (n - 1) = 1 / 2 by linarith, abs_neg]
    · rintro ⟨h1, h2, h3⟩
      have far : ∀ m : Int, m ≠ n → 1 / 2 ≤ |x - m| := by
        intro m hm
        rcases lt_or_gt_of_ne hm with h | h
        · have : (m : ℚ) ≤ n - 1 := by exact_mod_cast (show m ≤ n - 1 by omega)
          exact le_trans (by linarith) (le_abs_self _)
        · have : (n : ℚ) + 1 ≤ m := by exact_mod_cast (show n + 1 ≤ m by omega)
          exact le_trans (by linarith) (neg_le_abs _)
      have near : |x - n| ≤ 1 / 2 := abs_le.2 ⟨h1, h2⟩
      constructor
      · intro m
        by_cases hm : m = n
        · rw [hm]
        · exact near.trans (far m hm)
      · rintro ⟨m, hm, he⟩
        have : |x - n| = 1 / 2 := le_antisymm near (he ▸ far m hm)
        apply h3
        rcases abs_eq (by norm_num : (0 : ℚ) ≤ 1 / 2) |>.1 this with h | h
        · exact .inl h
        · exact .inr h
  rw [key]
  have h1 := Int.floor_le x
  have h2 := Int.lt_floor_add_one x
  constructor
  · rintro rfl
    unfold roundHalfEven
    simp only
    split_ifs with a b c <;> push_cast
    · exact ⟨by linarith, by linarith, by rintro (h | h) <;> linarith⟩
    · exact ⟨by linarith, by linarith, by rintro (h | h) <;> linarith⟩
    · exact ⟨by linarith, by linarith, fun _ => c⟩
    · exact ⟨by linarith, by linarith, fun _ => by omega⟩
  · rintro ⟨a, b, c⟩
    have e : n = ⌊x⌋ ∨ n = ⌊x⌋ + 1 := by
      have l : ((⌊x⌋ : Int) : ℚ) - 1 < n := by linarith
      have r : (n : ℚ) < (⌊x⌋ : Int) + 2 := by linarith
      have l' : ⌊x⌋ - 1 < n := by exact_mod_cast l
      have r' : n < ⌊x⌋ + 2 := by exact_mod_cast r
      omega
    unfold roundHalfEven
    simp only
    rcases e with e | e
    · have eq : ((⌊x⌋ : Int) : ℚ) = n := by rw [e]
      rw [← e]
      split_ifs with p q s
      · rfl
      · linarith
      · rfl
      · exact absurd (c (.inl (by linarith))) s
    · have eq : (n : ℚ) = (⌊x⌋ : Int) + 1 := by rw [e]; push_cast; rfl
      split_ifs with p q s
      · linarith
      · exact e.symm
      · have := c (.inr (by linarith)); omega
      · exact e.symm

example : roundHalfEven (5 / 2) = 2 ∧ roundHalfEven (-7 / 2) = -4 := by
  constructor <;> (unfold roundHalfEven; norm_num [Int.floor_eq_iff] )

end Verif
