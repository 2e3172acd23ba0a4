import Verif.Py.Basic
/-!
# Python `str`

A `str` without lone surrogates is a sequence of Unicode scalar values: Lean's `String`.
`len(s)` is `s.length` (code points).  Strings with lone surrogates cannot be encoded as UTF-8
(`UnicodeEncodeError`) and cannot come out of `str(bytes, "utf-8")`; see `Model/Points.lean` for them.
-/

namespace Verif.Py

/-- `s.encode("utf-8")` / `bytes(s, "utf-8")`. -/
def utf8 (s : String) : Bytes := s.toByteArray.data.toList

/-- `str(bs, "utf-8")`: strict decoding, `none` stands for `UnicodeDecodeError`. -/
def decodeUtf8? (bs : Bytes) : Option String := String.fromUTF8? ⟨bs.toArray⟩

theorem decodeUtf8_utf8 (s : String) : decodeUtf8? (utf8 s) = some s := by
  unfold decodeUtf8? utf8
  cases s with
  | ofByteArray b h => simp [String.fromUTF8?, String.fromUTF8, h]

theorem decodeUtf8_eq_some {bs : Bytes} {s : String} : decodeUtf8? bs = some s ↔ bs = utf8 s := by
  constructor
  · intro h
    unfold decodeUtf8? String.fromUTF8? at h
    split at h
    · cases h; simp [utf8, String.fromUTF8]
    · cases h
  · rintro rfl; exact decodeUtf8_utf8 s

theorem utf8_inj {s t : String} (h : utf8 s = utf8 t) : s = t := by
  have := decodeUtf8_utf8 s; rw [h, decodeUtf8_utf8] at this; exact (Option.some.inj this).symm

theorem utf8_empty : utf8 "" = [] := by decide

theorem utf8_append (s t : String) : utf8 (s ++ t) = utf8 s ++ utf8 t := by
  simp [utf8]

theorem utf8_eq_nil {s : String} : utf8 s = [] ↔ s = "" := by
  constructor
  · intro h; exact utf8_inj (by rw [h, utf8_empty])
  · rintro rfl; exact utf8_empty

end Verif.Py
