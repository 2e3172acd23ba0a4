import Verif.Spec.Ascii
import Verif.Py.Str
/-!
# UTF-8: character count and byte count
-/

namespace Verif.Py

theorem utf8_eq_flatMap (s : String) : utf8 s = s.toList.flatMap String.utf8EncodeChar := by
  unfold utf8
  rw [← String.utf8Encode_toList]
  simp [List.utf8Encode]

theorem utf8_ofList (l : List Char) : utf8 (String.ofList l) = l.flatMap String.utf8EncodeChar := by
  rw [utf8_eq_flatMap]; simp

theorem utf8_length (s : String) : (utf8 s).length = (s.toList.map Char.utf8Size).sum := by
  rw [utf8_eq_flatMap, List.length_flatMap]; simp [String.length_utf8EncodeChar]

theorem length_le_utf8 (s : String) : s.length ≤ (utf8 s).length := by
  rw [utf8_length, ← String.length_toList]
  induction s.toList with
  | nil => simp
  | cons c l ih =>
    have := Char.utf8Size_pos c
    simp only [List.length_cons, List.map_cons, List.sum_cons]; omega

instance (s : String) : Decidable (Ascii s) := inferInstanceAs (Decidable (∀ c ∈ _, _))

theorem utf8Size_ascii {c : Char} (h : c.val < 128) : c.utf8Size = 1 := by
  unfold Char.utf8Size
  rw [if_pos]
  have : c.val.toNat < 128 := by simpa [UInt32.lt_iff_toNat_lt] using h
  rw [UInt32.le_iff_toNat_le]
  show c.val.toNat ≤ 127
  omega

theorem utf8_length_ascii {s : String} (h : Ascii s) : (utf8 s).length = s.length := by
  rw [utf8_length, ← String.length_toList]
  unfold Ascii at h
  revert h
  induction s.toList with
  | nil => simp
  | cons c l ih =>
    intro h
    simp only [List.map_cons, List.sum_cons, List.length_cons]
    rw [ih (fun x hx => h x (by simp [hx])), utf8Size_ascii (h c (by simp))]; omega

end Verif.Py
