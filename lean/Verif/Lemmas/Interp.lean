import Verif.Lemmas.Text
import Verif.Model.Setting
/-!
# Interpreters that meet the assumptions of `Py/Text.lean`

The assumptions made about Unicode tables and about the texts of numbers are satisfiable; the examples beside the
theorems use these two.
-/

namespace Verif
open Py

/-- A Unicode database restricted to ASCII: all assumptions are satisfiable. -/
def asciiUnicode : Unicode where
  digitVal c := if c.isDigit then some (c.toNat - '0'.toNat) else none
  isSpace c := c.toNat == 32 || (9 ≤ c.toNat && c.toNat ≤ 13) || (28 ≤ c.toNat && c.toNat ≤ 31)
  isWord c := c.isDigit || c.isLower || c.isUpper || c = '_'
  lower s := String.ofList (s.toList.map Char.toLower)
  maxDigits := some 4300
  digit_lt := by
    intro c d h
    split at h
    · next hd =>
      simp only [Option.some.injEq] at h
      simp only [Char.isDigit, Bool.and_eq_true, decide_eq_true_eq, UInt32.le_iff_toNat_le] at hd
      have h57 : c.toNat ≤ 57 := hd.2
      have e : '0'.toNat = 48 := rfl
      omega
    · simp at h
  digit_ascii := by intro c h; rw [if_pos h]
  digit_word := by
    intro c h
    split at h
    · next hd => simp [hd]
    · simp at h
  space_word := by
    intro c h
    simp only [Bool.or_eq_true, decide_eq_true_eq, Char.isDigit, Char.isLower, Char.isUpper, Bool.and_eq_true,
      UInt32.le_iff_toNat_le, ge_iff_le] at h
    simp only [Bool.or_eq_false_iff, Bool.and_eq_false_iff, beq_eq_false_iff_ne, ne_eq, decide_eq_false_iff_not]
    have key : 48 ≤ c.toNat := by
      rcases h with ((⟨h, _⟩ | ⟨h, _⟩) | ⟨h, _⟩) | rfl
      · exact h
      · exact le_trans (by decide) h
      · exact le_trans (by decide) h
      · decide
    omega
  lower_word := by
    intro c h
    refine ⟨by simp [h], ?_⟩
    rw [if_neg]
    intro hd
    simp only [Char.isLower, Char.isDigit, Bool.and_eq_true, decide_eq_true_eq, UInt32.le_iff_toNat_le,
      ge_iff_le] at h hd
    have h1 : c.toNat ≤ 57 := hd.2
    have h2 : 97 ≤ c.toNat := h.1
    omega
  minus := by decide
  plus := by decide
  lower_ascii := fun _ _ => rfl
  maxDigits_ge := by intro n h; cases h; decide

/-- An interpreter: the assumptions on text conversion are satisfiable (here floats are written as the
number of their bit pattern). -/
def sampleInterp : Interp where
  u := asciiUnicode
  repr _ := .ok "..."
  float := {
    parse := fun s => do
      let n ← intOfStr asciiUnicode s
      if h : n.toNat < 2 ^ 64 then .ok ⟨n.toNat, h⟩ else .error .value
    str := fun x => toString (x.bits : Int)
    parse_str := by
      intro x _
      have hlt : ((x.bits : Int)).natAbs < 10 ^ 640 :=
        Nat.lt_of_lt_of_le x.lt (Nat.le_trans (by decide : 2 ^ 64 ≤ 10 ^ 20) (Nat.pow_le_pow_right (by decide) (by decide)))
      rw [intOfStr_strInt asciiUnicode (strInt_ok asciiUnicode hlt)]
      show (if h : ((x.bits : Int)).toNat < 2 ^ 64 then Except.ok (⟨((x.bits : Int)).toNat, h⟩ : F64)
        else .error Err.value) = _
      have : ((x.bits : Int)).toNat = x.bits := Int.toNat_natCast _
      simp only [this]
      rw [dif_pos x.lt] }

end Verif
