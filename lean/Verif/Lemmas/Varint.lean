import Mathlib.Data.Nat.Bitwise
import Verif.Lemmas.Int
import Verif.Model.StreamInput
import Verif.Model.StreamOutput
/-!
# Varints: the write loop produces base-128 digits, the unrolled readers fold them back
-/

namespace Verif
open Py StreamInput StreamOutput

/-- Base-128 digits with continuation bits (helper; the specification is `Spec.IsVarint`). -/
def varint (n : Nat) : Bytes :=
  if n < 128 then [UInt8.ofNat n] else UInt8.ofNat (n % 128 + 128) :: varint (n / 128)
termination_by n
decreasing_by omega

theorem varint_lt {n : Nat} (h : n < 128) : varint n = [UInt8.ofNat n] := by
  rw [varint, if_pos h]

theorem varint_ge {n : Nat} (h : 128 ≤ n) :
    varint n = UInt8.ofNat (n % 128 + 128) :: varint (n / 128) := by
  rw [varint, if_neg (by omega)]

theorem ldiff_127 (n : Nat) : n.ldiff 0x7F = 0 ↔ n < 128 := by
  have h : n.ldiff 127 = n / 128 * 128 := by
    apply Nat.eq_of_testBit_eq
    intro i
    rw [Nat.testBit_ldiff, show (127 : Nat) = 2 ^ 7 - 1 from rfl, Nat.testBit_two_pow_sub_one,
      show (128 : Nat) = 2 ^ 7 from rfl, Nat.testBit_mul_two_pow, Nat.testBit_div_two_pow]
    by_cases hi : i < 7
    · simp [hi, show ¬ 7 ≤ i by omega]
    · simp [hi, show 7 ≤ i by omega, show i - 7 + 7 = i by omega]
  rw [h]; omega

theorem vIntLoop_eq (n : Nat) (h : 128 ≤ n) : vIntLoop n = varint n := by
  induction n using Nat.strong_induction_on with
  | _ n ih =>
    rw [vIntLoop, varint_ge h]
    have e1 : n >>> 7 = n / 128 := by rw [Nat.shiftRight_eq_div_pow]
    have e2 : (n &&& 0x7F) ||| 0x80 = n % 128 + 128 := by
      rw [show (0x7F : Nat) = 2 ^ 7 - 1 from rfl, Nat.and_two_pow_sub_one_eq_mod]
      have := Nat.shiftLeft_add_eq_or_of_lt (a := 1) (b := n % 128) (i := 7) (by omega)
      rw [Nat.or_comm]; simpa [Nat.add_comm] using this.symm
    rw [e1, e2]
    congr 1
    by_cases hlt : n / 128 < 128
    · rw [if_pos ((ldiff_127 _).2 hlt), varint_lt hlt]
    · rw [if_neg (by rw [ldiff_127]; exact hlt)]
      exact ih _ (by omega) (by omega)

theorem beDigits_one (v : Nat) : beDigits 1 v = [UInt8.ofNat v] := by
  simp only [beDigits, pow_zero, Nat.div_one]
  congr 1
  apply UInt8.toNat_inj.1
  simp

theorem writeVInt_nat (n : Nat) : writeVInt n = W.emit (varint n) := by
  unfold writeVInt
  split
  · have h : n < 128 := by omega
    rw [varint_lt h, writeByte, toBytesSigned, if_pos (by constructor <;> omega)]
    have : ((n : Int) % 256 ^ 1).toNat = n := by
      rw [Int.emod_eq_of_lt (by omega) (by omega)]; rfl
    rw [this, beDigits_one]
  · rw [Int.toNat_natCast, vIntLoop_eq n (by omega)]

@[simp] theorem writeVInt_nat_err (n : Nat) : (writeVInt n).err = none := by
  rw [writeVInt_nat]; rfl

@[simp] theorem writeVInt_nat_out (n : Nat) : (writeVInt n).out = varint n := by
  rw [writeVInt_nat]; rfl

theorem vIntSizeLoop_eq (n r : Nat) (h : 128 ≤ n) : vIntSizeLoop n r = r + (varint n).length := by
  induction n using Nat.strong_induction_on generalizing r with
  | _ n ih =>
    rw [vIntSizeLoop, varint_ge h]
    have e1 : n >>> 7 = n / 128 := by rw [Nat.shiftRight_eq_div_pow]
    rw [e1]
    by_cases hlt : n / 128 < 128
    · rw [if_pos ((ldiff_127 _).2 hlt), varint_lt hlt]; simp
    · rw [if_neg (by rw [ldiff_127]; exact hlt), ih _ (by omega) _ (by omega)]
      simp; omega

theorem vIntSize_nat (n : Nat) : vIntSize n = (varint n).length := by
  unfold vIntSize
  split
  · rw [varint_lt (by omega)]; rfl
  · rw [Int.toNat_natCast, vIntSizeLoop_eq n 0 (by omega)]; simp

/-! ### Reading -/

theorem readByte_nil : readByte [] = .ok (0, []) := rfl

/-- The value of a signed byte. -/
def sbyte (b : UInt8) : Int := if b.toNat < 128 then b.toNat else (b.toNat : Int) - 256

theorem fromBytesSigned_one (b : UInt8) : fromBytesSigned [b] = sbyte b := by
  have h1 : natOfBE [b] = b.toNat := by simp [natOfBE]
  unfold fromBytesSigned sbyte
  rw [h1]
  simp only [List.length_singleton, pow_one]
  split <;> split <;> omega

theorem readByte_cons (b : UInt8) (bs : Bytes) : readByte (b :: bs) = .ok (sbyte b, bs) := by
  rw [← fromBytesSigned_one]; rfl

theorem low7_sbyte (b : UInt8) : low7 (sbyte b) = b.toNat % 128 := by
  revert b
  have h : ∀ n : Fin 256, low7 (sbyte (UInt8.ofNat n.val)) = n.val % 128 := by decide +kernel
  intro b
  have := h ⟨b.toNat, b.toNat_lt⟩
  simpa using this

theorem more_sbyte (b : UInt8) : more (sbyte b) = decide (128 ≤ b.toNat) := by
  revert b
  have h : ∀ n : Fin 256, more (sbyte (UInt8.ofNat n.val)) = decide (128 ≤ n.val) := by decide +kernel
  intro b
  have := h ⟨b.toNat, b.toNat_lt⟩
  simpa using this

/-- One unrolled step of the varint readers. -/
def vstep (sh i : Nat) (k : Nat → Reader Int) : Reader Int := do
  let b ← readByte
  let i := i ||| (low7 b <<< sh)
  if !more b then return (i : Int) else k i

/-- The last step of `read_v_int`. -/
def vintLast (i : Nat) : Reader Int := do
  let b ← readByte
  if more b then Reader.throw .exception
  else return ((i ||| (low7 b <<< 28) : Nat) : Int)

/-- The last step of `read_v_long`. -/
def vlongLast (i : Nat) : Reader Int := do
  let b ← readByte
  if b ≠ 0 ∧ b ≠ 1 then Reader.throw .exception
  else return ((i ||| (b.toNat <<< 63) : Nat) : Int)

theorem readVInt_steps : readVInt =
    vstep 0 0 fun i => vstep 7 i fun i => vstep 14 i fun i => vstep 21 i vintLast := by
  simp only [vstep, Nat.zero_or, Nat.shiftLeft_zero]; rfl

theorem readVLong_steps : readVLong =
    vstep 0 0 fun i => vstep 7 i fun i => vstep 14 i fun i => vstep 21 i fun i => vstep 28 i fun i =>
      vstep 35 i fun i => vstep 42 i fun i => vstep 49 i fun i => vstep 56 i vlongLast := by
  simp only [vstep, Nat.zero_or, Nat.shiftLeft_zero]; rfl

theorem or_shiftLeft {i x sh : Nat} (h : i < 2 ^ sh) : i ||| (x <<< sh) = i + x * 2 ^ sh := by
  rw [Nat.or_comm, ← Nat.shiftLeft_add_eq_or_of_lt h, Nat.shiftLeft_eq, Nat.add_comm]

theorem vstep_nil (sh i : Nat) (k : Nat → Reader Int) : vstep sh i k [] = .ok ((i : Int), []) := by
  rw [vstep, Reader.bind_ok readByte_nil]
  have h1 : low7 0 = 0 := by decide +kernel
  have h2 : more 0 = false := by decide +kernel
  simp [h1, h2, Reader.pure_def]

theorem vstep_cons {sh i : Nat} (k : Nat → Reader Int) (b : UInt8) (bs : Bytes) (hi : i < 2 ^ sh) :
    vstep sh i k (b :: bs) = if b.toNat < 128 then .ok (((i + b.toNat * 2 ^ sh : Nat) : Int), bs)
      else k (i + b.toNat % 128 * 2 ^ sh) bs := by
  rw [vstep, Reader.bind_ok (readByte_cons b bs)]
  simp only [low7_sbyte, more_sbyte, or_shiftLeft hi]
  by_cases h : b.toNat < 128
  · have : ¬ 128 ≤ b.toNat := by omega
    simp [h, this, Reader.pure_def, Nat.mod_eq_of_lt h]
  · have : 128 ≤ b.toNat := by omega
    simp [h, this]

theorem toNat_low {n : Nat} (h : n < 128) : (UInt8.ofNat n).toNat = n := by
  rw [UInt8.toNat_ofNat']; exact Nat.mod_eq_of_lt (by omega)

theorem toNat_cont (n : Nat) : (UInt8.ofNat (n % 128 + 128)).toNat = n % 128 + 128 := by
  rw [UInt8.toNat_ofNat']; exact Nat.mod_eq_of_lt (by omega)

theorem vstep_varint {sh i n : Nat} (k : Nat → Reader Int) (rest : Bytes) (hi : i < 2 ^ sh) :
    vstep sh i k (varint n ++ rest) =
      if n < 128 then .ok (((i + n * 2 ^ sh : Nat) : Int), rest)
      else k (i + n % 128 * 2 ^ sh) (varint (n / 128) ++ rest) := by
  by_cases h : n < 128
  · rw [varint_lt h, if_pos h, List.singleton_append, vstep_cons _ _ _ hi, toNat_low h, if_pos h]
  · rw [varint_ge (by omega), if_neg h, List.cons_append, vstep_cons _ _ _ hi, toNat_cont,
      if_neg (by omega), show (n % 128 + 128) % 128 = n % 128 by omega]

theorem vintLast_varint {i n : Nat} (rest : Bytes) (hi : i < 2 ^ 28) :
    vintLast i (varint n ++ rest) =
      if n < 128 then .ok (((i + n * 2 ^ 28 : Nat) : Int), rest) else .error .exception := by
  by_cases h : n < 128
  · rw [varint_lt h, if_pos h, List.singleton_append, vintLast, Reader.bind_ok (readByte_cons _ _)]
    simp only [low7_sbyte, more_sbyte, or_shiftLeft hi, toNat_low h, Nat.mod_eq_of_lt h]
    rw [if_neg (by simp; omega)]; rfl
  · rw [varint_ge (by omega), if_neg h, List.cons_append, vintLast, Reader.bind_ok (readByte_cons _ _)]
    simp only [low7_sbyte, more_sbyte, or_shiftLeft hi, toNat_cont]
    rw [if_pos (by simp)]; rfl

theorem readVInt_varint (n : Nat) (rest : Bytes) :
    readVInt (varint n ++ rest) = if n < 2 ^ 35 then .ok ((n : Int), rest) else .error .exception := by
  rw [readVInt_steps, vstep_varint _ _ (by omega)]
  by_cases h1 : n < 128
  · rw [if_pos h1, if_pos (by omega)]; simp
  rw [if_neg h1, vstep_varint _ _ (by omega)]
  by_cases h2 : n / 128 < 128
  · rw [if_pos h2, if_pos (by omega)]; congr; omega
  rw [if_neg h2, vstep_varint _ _ (by omega)]
  by_cases h3 : n / 128 / 128 < 128
  · rw [if_pos h3, if_pos (by omega)]; congr; omega
  rw [if_neg h3, vstep_varint _ _ (by omega)]
  by_cases h4 : n / 128 / 128 / 128 < 128
  · rw [if_pos h4, if_pos (by omega)]; congr; omega
  rw [if_neg h4, vintLast_varint _ (by omega)]
  by_cases h5 : n / 128 / 128 / 128 / 128 < 128
  · rw [if_pos h5, if_pos (by omega)]; congr; omega
  · rw [if_neg h5, if_neg (by omega)]

theorem vlongLast_varint {i n : Nat} (rest : Bytes) (hi : i < 2 ^ 63) :
    vlongLast i (varint n ++ rest) =
      if n < 2 then .ok (((i + n * 2 ^ 63 : Nat) : Int), rest) else .error .exception := by
  by_cases h : n < 128
  · rw [varint_lt h, List.singleton_append, vlongLast, Reader.bind_ok (readByte_cons _ _)]
    have : sbyte (UInt8.ofNat n) = n := by simp [sbyte, toNat_low h, h]
    rw [this]
    by_cases h2 : n < 2
    · rw [if_pos h2, if_neg (by omega), Int.toNat_natCast, or_shiftLeft hi]; rfl
    · rw [if_neg h2, if_pos (by omega)]; rfl
  · rw [varint_ge (by omega), if_neg (by omega), List.cons_append, vlongLast, Reader.bind_ok (readByte_cons _ _)]
    have : sbyte (UInt8.ofNat (n % 128 + 128)) < 0 := by
      rw [sbyte, toNat_cont, if_neg (by omega)]; omega
    rw [if_pos (by omega)]; rfl

theorem readVLong_varint (n : Nat) (rest : Bytes) :
    readVLong (varint n ++ rest) = if n < 2 ^ 64 then .ok ((n : Int), rest) else .error .exception := by
  rw [readVLong_steps, vstep_varint _ _ (by omega)]
  by_cases h1 : n < 128
  · rw [if_pos h1, if_pos (by omega)]; simp
  rw [if_neg h1, vstep_varint _ _ (by omega)]
  by_cases h2 : n / 128 < 128
  · rw [if_pos h2, if_pos (by omega)]; congr; omega
  rw [if_neg h2, vstep_varint _ _ (by omega)]
  by_cases h3 : n / 128 / 128 < 128
  · rw [if_pos h3, if_pos (by omega)]; congr; omega
  rw [if_neg h3, vstep_varint _ _ (by omega)]
  by_cases h4 : n / 128 / 128 / 128 < 128
  · rw [if_pos h4, if_pos (by omega)]; congr; omega
  rw [if_neg h4, vstep_varint _ _ (by omega)]
  by_cases h5 : n / 128 / 128 / 128 / 128 < 128
  · rw [if_pos h5, if_pos (by omega)]; congr; omega
  rw [if_neg h5, vstep_varint _ _ (by omega)]
  by_cases h6 : n / 128 / 128 / 128 / 128 / 128 < 128
  · rw [if_pos h6, if_pos (by omega)]; congr; omega
  rw [if_neg h6, vstep_varint _ _ (by omega)]
  by_cases h7 : n / 128 / 128 / 128 / 128 / 128 / 128 < 128
  · rw [if_pos h7, if_pos (by omega)]; congr; omega
  rw [if_neg h7, vstep_varint _ _ (by omega)]
  by_cases h8 : n / 128 / 128 / 128 / 128 / 128 / 128 / 128 < 128
  · rw [if_pos h8, if_pos (by omega)]; congr; omega
  rw [if_neg h8, vstep_varint _ _ (by omega)]
  by_cases h9 : n / 128 / 128 / 128 / 128 / 128 / 128 / 128 / 128 < 128
  · rw [if_pos h9, if_pos (by omega)]; congr; omega
  rw [if_neg h9, vlongLast_varint _ (by omega)]
  by_cases h10 : n / 128 / 128 / 128 / 128 / 128 / 128 / 128 / 128 / 128 < 2
  · rw [if_pos h10, if_pos (by omega)]; congr; omega
  · rw [if_neg h10, if_neg (by omega)]

end Verif
