import Verif.Spec.Base64
import Verif.Model.Base64
import Verif.Spec.Bytes
import Verif.Props.Primitives
import Mathlib.Tactic.Ring
/-!
# C62: ephemeral node ids

Specification: the characters of the URL-safe alphabet are read as base-64 digits.
-/

namespace Verif
open Base64 Spec

theorem base64Value_append_one (l : List Char) (c : Char) :
    base64Value (l ++ [c]) = base64Value l * 64 + alphabet.idxOf c := by
  simp [base64Value]

theorem base64Value_foldl (l : List Char) (acc : Nat) :
    l.foldl (fun acc c => acc * 64 + alphabet.idxOf c) acc = acc * 64 ^ l.length + base64Value l := by
  induction l generalizing acc with
  | nil => simp [base64Value]
  | cons c l ih =>
    unfold base64Value
    rw [List.foldl_cons, List.foldl_cons, ih, ih, List.length_cons, Nat.pow_succ]
    ring

theorem base64Value_cons (c : Char) (l : List Char) :
    base64Value (c :: l) = alphabet.idxOf c * 64 ^ l.length + base64Value l := by
  unfold base64Value
  rw [List.foldl_cons, base64Value_foldl]
  simp [base64Value]

theorem idxOf_char : ∀ n < 64, alphabet.idxOf (char n) = n := by decide +kernel
theorem char_mem : ∀ n < 64, char n ∈ alphabet := by decide +kernel

theorem encode_shape (k : Nat) : ∀ bs : Bytes, bs.length = 3 * k + 1 →
    ∃ body : List Char, encode bs = body ++ ['=', '='] ∧ body.length = 4 * k + 2 ∧
      (∀ c ∈ body, c ∈ alphabet) ∧ base64Value body = Py.natOfBE bs * 16 := by
  induction k with
  | zero =>
    intro bs h
    obtain ⟨a, rfl⟩ : ∃ a, bs = [a] := List.length_eq_one_iff.1 h
    have ha := a.toNat_lt
    refine ⟨[char (a.toNat / 4), char (a.toNat % 4 * 16)], rfl, rfl, ?_, ?_⟩
    · simp only [List.mem_cons, List.not_mem_nil, or_false]
      rintro c (rfl | rfl)
      · exact char_mem _ (by omega)
      · exact char_mem _ (by omega)
    · simp only [base64Value, List.foldl_cons, List.foldl_nil]
      rw [idxOf_char _ (by omega), idxOf_char _ (by omega)]
      simp only [Py.natOfBE, List.foldl_cons, List.foldl_nil]
      omega
  | succ k ih =>
    intro bs h
    match bs, h with
    | a :: b :: c :: rest, h =>
      obtain ⟨body, h1, h2, h3, h4⟩ := ih rest (by simp at h; omega)
      have ha := a.toNat_lt
      have hb := b.toNat_lt
      have hc := c.toNat_lt
      refine ⟨char (a.toNat / 4) :: char (a.toNat % 4 * 16 + b.toNat / 16) ::
        char (b.toNat % 16 * 4 + c.toNat / 64) :: char (c.toNat % 64) :: body, ?_, ?_, ?_, ?_⟩
      · simp [encode, h1]
      · simp [h2]; omega
      · simp only [List.mem_cons]
        rintro x (rfl | rfl | rfl | rfl | hx)
        · exact char_mem _ (by omega)
        · exact char_mem _ (by omega)
        · exact char_mem _ (by omega)
        · exact char_mem _ (by omega)
        · exact h3 x hx
      · simp only [base64Value_cons, List.length_cons, h2, h4]
        rw [idxOf_char _ (by omega), idxOf_char _ (by omega), idxOf_char _ (by omega),
          idxOf_char _ (by omega)]
        have hr : rest.length = 3 * k + 1 := by simp at h; omega
        simp only [Py.natOfBE_cons, List.length_cons, hr]
        have e : (a.toNat / 4 * 64 ^ 3 + (a.toNat % 4 * 16 + b.toNat / 16) * 64 ^ 2 +
            (b.toNat % 16 * 4 + c.toNat / 64) * 64 + c.toNat % 64) =
            a.toNat * 256 ^ 2 + b.toNat * 256 + c.toNat := by omega
        have p : 64 ^ (4 * k + 2) = 256 ^ (3 * k + 1) * 16 := by
          rw [show (64 : Nat) = 2 ^ 6 by rfl, show (256 : Nat) = 2 ^ 8 by rfl, show (16 : Nat) = 2 ^ 4 by rfl,
            ← Nat.pow_mul, ← Nat.pow_mul, ← Nat.pow_add]
          congr 1; ring
        calc _ = (a.toNat / 4 * 64 ^ 3 + (a.toNat % 4 * 16 + b.toNat / 16) * 64 ^ 2 +
            (b.toNat % 16 * 4 + c.toNat / 64) * 64 + c.toNat % 64) * 64 ^ (4 * k + 2) +
              Py.natOfBE rest * 16 := by ring
          _ = _ := by rw [e, p]; ring

theorem ephemeral_facts (uuid : Bytes) (h : uuid.length = 16) :
    (ephemeralId uuid).toList.length = 22 ∧ (∀ c ∈ (ephemeralId uuid).toList, c ∈ alphabet) ∧
    base64Value (ephemeralId uuid).toList = Py.natOfBE uuid * 16 := by
  obtain ⟨body, h1, h2, h3, h4⟩ := encode_shape 5 uuid (by omega)
  have e : (ephemeralId uuid).toList = body := by
    unfold ephemeralId
    rw [h1]
    simp
  rw [e]
  exact ⟨by omega, h3, h4⟩

/-- C62: for every 16-byte UUID the ephemeral id has 22 characters, all in the URL-safe base64
alphabet (so no padding), and read in base 64 it is the UUID followed by four zero bits. -/
theorem C62_wellformed (uuid : Bytes) (h : uuid.length = 16) :
    (ephemeralId uuid).length = 22 ∧ (∀ c ∈ (ephemeralId uuid).toList, c ∈ alphabet) ∧
    base64Value (ephemeralId uuid).toList = beValue uuid * 16 := by
  have := ephemeral_facts uuid h
  refine ⟨by rw [← String.length_toList]; exact this.1, this.2.1, ?_⟩
  rw [this.2.2, beValue_eq]

example := C62_wellformed [0x00, 0x10, 0x83, 0x10, 0x51, 0x87, 0x20, 0x92, 0x8b, 0x30, 0xd3, 0x8f, 0x41, 0x14, 0x93, 0xff] rfl

/-- C62: different UUIDs give different ids. -/
theorem C62_injective (u v : Bytes) (hu : u.length = 16) (hv : v.length = 16)
    (h : ephemeralId u = ephemeralId v) : u = v := by
  have h1 := (ephemeral_facts u hu).2.2
  have h2 := (ephemeral_facts v hv).2.2
  rw [h] at h1
  have h3 : Py.natOfBE u = Py.natOfBE v := by omega
  have h4 := Py.beDigits_natOfBE u
  have h5 := Py.beDigits_natOfBE v
  rw [hu, h3] at h4
  rw [hv] at h5
  exact h4.symm.trans h5

example := C62_injective (List.replicate 16 7) (List.replicate 16 7) rfl rfl rfl

/-- The alphabet is the RFC 4648 URL-safe one: 64 distinct characters, without padding, `+` or `/`. -/
theorem C62_alphabet : alphabet.length = 64 ∧ alphabet.Nodup ∧ '=' ∉ alphabet ∧ '+' ∉ alphabet ∧
    '/' ∉ alphabet := by decide +kernel

example : ephemeralId [0x00, 0x10, 0x83, 0x10, 0x51, 0x87, 0x20, 0x92, 0x8b, 0x30, 0xd3, 0x8f, 0x41, 0x14, 0x93, 0xff] =
    "ABCDEFGHIJKLMNOPQRST_w" := by decide +kernel

end Verif
