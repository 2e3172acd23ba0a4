import Mathlib.Data.Int.Bitwise
import Mathlib.Tactic.Ring
import Mathlib.Tactic.Positivity
import Verif.Py.Int
/-!
# Lemmas about big-endian integers
-/

namespace Verif.Py

@[simp] theorem beDigits_length (n v : Nat) : (beDigits n v).length = n := by
  induction n with
  | zero => rfl
  | succ n ih => simp [beDigits, ih]

theorem natOfBE_foldl (bs : Bytes) (acc : Nat) :
    bs.foldl (fun acc b => acc * 256 + b.toNat) acc = acc * 256 ^ bs.length + natOfBE bs := by
  induction bs generalizing acc with
  | nil => simp [natOfBE]
  | cons b bs ih =>
    simp only [List.foldl_cons, natOfBE, List.length_cons]
    rw [ih, ih (0 * 256 + b.toNat)]
    ring

@[simp] theorem natOfBE_nil : natOfBE [] = 0 := rfl

theorem natOfBE_cons (b : UInt8) (bs : Bytes) :
    natOfBE (b :: bs) = b.toNat * 256 ^ bs.length + natOfBE bs := by
  have := natOfBE_foldl bs (0 * 256 + b.toNat)
  simpa [natOfBE] using this

theorem natOfBE_lt (bs : Bytes) : natOfBE bs < 256 ^ bs.length := by
  induction bs with
  | nil => simp
  | cons b bs ih =>
    rw [natOfBE_cons, List.length_cons, pow_succ]
    have hb : b.toNat < 256 := b.toNat_lt
    have : b.toNat * 256 ^ bs.length ≤ 255 * 256 ^ bs.length := Nat.mul_le_mul_right _ (by omega)
    omega

theorem natOfBE_beDigits (n v : Nat) : natOfBE (beDigits n v) = v % 256 ^ n := by
  induction n with
  | zero => simp [beDigits, Nat.mod_one]
  | succ n ih =>
    rw [beDigits, natOfBE_cons, beDigits_length, ih, UInt8.toNat_ofNat', pow_succ 256 n]
    have h := Nat.mod_mul (x := v) (a := 256 ^ n) (b := 256)
    rw [h]
    simp only [Nat.reducePow, Nat.mod_mod]
    ring

theorem beDigits_natOfBE (bs : Bytes) : beDigits bs.length (natOfBE bs) = bs := by
  have key : ∀ (bs : Bytes) (k : Nat), beDigits bs.length (k * 256 ^ bs.length + natOfBE bs) = bs := by
    intro bs
    induction bs with
    | nil => intro k; rfl
    | cons b bs ih =>
      intro k
      rw [List.length_cons, beDigits, natOfBE_cons]
      have h1 : k * 256 ^ (bs.length + 1) + (b.toNat * 256 ^ bs.length + natOfBE bs)
          = (k * 256 + b.toNat) * 256 ^ bs.length + natOfBE bs := by ring
      rw [h1, ih]
      congr 1
      have hpos : 0 < 256 ^ bs.length := by positivity
      have h2 : ((k * 256 + b.toNat) * 256 ^ bs.length + natOfBE bs) / 256 ^ bs.length = k * 256 + b.toNat := by
        rw [Nat.add_comm, Nat.add_mul_div_right _ _ hpos, Nat.div_eq_of_lt (natOfBE_lt bs)]; omega
      rw [h2]
      have hb : b.toNat < 256 := b.toNat_lt
      have : (k * 256 + b.toNat) % 256 = b.toNat := by omega
      rw [this]; simp
  simpa using key bs 0

theorem fromBytesSigned_beDigits {n : Nat} {i : Int} (_hn : 0 < n)
    (h1 : -(256 ^ n : Int) ≤ 2 * i) (h2 : 2 * i < 256 ^ n) :
    fromBytesSigned (beDigits n (i % 256 ^ n).toNat) = i := by
  unfold fromBytesSigned
  rw [natOfBE_beDigits, beDigits_length]
  have hpos : (0 : Int) < 256 ^ n := by positivity
  have e1 : ((256 ^ n : Nat) : Int) = 256 ^ n := by push_cast; rfl
  have hm1 : 0 ≤ i % 256 ^ n := Int.emod_nonneg _ (by omega)
  have hm2 : i % 256 ^ n < 256 ^ n := Int.emod_lt_of_pos _ hpos
  have ht : (i % 256 ^ n).toNat % 256 ^ n = (i % 256 ^ n).toNat := Nat.mod_eq_of_lt (by omega)
  rw [ht]
  by_cases hi : 0 ≤ i
  · have : i % 256 ^ n = i := Int.emod_eq_of_lt hi (by omega)
    rw [this]; split <;> omega
  · have : i % 256 ^ n = i + 256 ^ n := by
      rw [← Int.add_emod_right]; exact Int.emod_eq_of_lt (by omega) (by omega)
    rw [this]; split <;> omega

theorem fromBytesSigned_range (bs : Bytes) :
    -(256 ^ bs.length : Int) ≤ 2 * fromBytesSigned bs ∧ 2 * fromBytesSigned bs < 256 ^ bs.length := by
  have h := natOfBE_lt bs
  have e1 : ((256 ^ bs.length : Nat) : Int) = 256 ^ bs.length := by push_cast; rfl
  have hpos : (0 : Int) < 256 ^ bs.length := by positivity
  unfold fromBytesSigned
  split <;> constructor <;> omega

theorem emod_pow_of_neg {n : Nat} {i : Int} (h : i < 0) (h' : -(256 ^ n : Int) ≤ i) :
    i % 256 ^ n = i + 256 ^ n := by
  rw [← Int.add_emod_right]; exact Int.emod_eq_of_lt (by omega) (by omega)

/-- Signed decoding is injective on byte strings of equal length. -/
theorem beDigits_fromBytesSigned (bs : Bytes) :
    beDigits bs.length (fromBytesSigned bs % 256 ^ bs.length).toNat = bs := by
  have h := natOfBE_lt bs
  have e1 : ((256 ^ bs.length : Nat) : Int) = 256 ^ bs.length := by push_cast; rfl
  have hx : (fromBytesSigned bs % 256 ^ bs.length).toNat = natOfBE bs := by
    unfold fromBytesSigned
    split
    · rw [emod_pow_of_neg (by omega) (by omega)]; omega
    · rw [Int.emod_eq_of_lt (by omega) (by omega)]; omega
  rw [hx, beDigits_natOfBE]

end Verif.Py
