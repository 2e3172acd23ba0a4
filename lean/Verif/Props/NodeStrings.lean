import Verif.Props.Primitives
import Verif.Spec.NodeString
/-!
# C105: strings of the OpenSearch node

The extension writes the number of bytes of the UTF-8 text before it; a node writes the number of UTF-16 code units.  For
ASCII texts this is the same.
-/

namespace Verif
open Py StreamInput StreamOutput Spec

theorem utf16Units_length (c : Char) : (utf16Units c).length = if c.toNat < 0x10000 then 1 else 2 := by
  unfold utf16Units; split <;> rfl

theorem units_lt_size (c : Char) : (utf16Units c).length ≤ c.utf8Size ∧
    (¬ c.val < 128 → (utf16Units c).length < c.utf8Size) := by
  rw [utf16Units_length]
  unfold Char.utf8Size
  simp only [UInt32.le_iff_toNat_le, UInt32.lt_iff_toNat_lt]
  have e1 : (UInt32.ofNatLT 0x7F (by decide)).toNat = 127 := rfl
  have e2 : (UInt32.ofNatLT 0x7FF (by decide)).toNat = 2047 := rfl
  have e3 : (UInt32.ofNatLT 0xFFFF (by decide)).toNat = 65535 := rfl
  have e4 : (128 : UInt32).toNat = 128 := rfl
  simp only [e1, e2, e3, e4]
  show (if c.val.toNat < 65536 then 1 else 2) ≤ _ ∧ _
  show _ ∧ (_ → (if c.val.toNat < 65536 then 1 else 2) < _)
  constructor
  · split_ifs <;> omega
  · intro h; split_ifs <;> omega

theorem javaChars_le (s : String) : (javaChars s).length ≤ (utf8 s).length ∧
    (¬ Ascii s → (javaChars s).length < (utf8 s).length) := by
  unfold javaChars Ascii
  rw [utf8_length, List.length_flatMap]
  induction s.toList with
  | nil => simp
  | cons c l ih =>
    have := units_lt_size c
    simp only [List.map_cons, List.sum_cons, List.mem_cons, forall_eq_or_imp]
    refine ⟨by omega, fun h => ?_⟩
    by_cases hc : c.val < 128
    · have := ih.2 (fun hl => h ⟨hc, hl⟩); omega
    · have := this.2 hc; omega

theorem javaChars_ascii {s : String} (h : Ascii s) : (javaChars s).flatMap unitBytes = utf8 s := by
  rw [utf8_eq_flatMap, javaChars, List.flatMap_assoc]
  unfold Ascii at h
  revert h
  induction s.toList with
  | nil => simp
  | cons c l ih =>
    intro h
    rw [List.flatMap_cons, List.flatMap_cons, ih fun x hx => h x (by simp [hx])]
    congr 1
    have hc : c.toNat < 128 := by
      have := h c (by simp)
      rw [UInt32.lt_iff_toNat_lt] at this
      exact this
    unfold utf16Units
    rw [if_pos (by omega)]
    simp only [List.flatMap_cons, List.flatMap_nil, List.append_nil]
    unfold unitBytes
    rw [if_pos (by omega)]
    unfold String.utf8EncodeChar
    have hc' : c.val.toNat ≤ 127 := by have : c.toNat = c.val.toNat := rfl; omega
    simp only [hc', if_true]
    rfl

theorem javaChars_ascii_length {s : String} (h : Ascii s) : (javaChars s).length = (utf8 s).length := by
  have := javaChars_le s
  rw [utf8_length_ascii h] at this ⊢
  have h2 : s.length ≤ (javaChars s).length := by
    unfold javaChars
    rw [← String.length_toList, List.length_flatMap]
    induction s.toList with
    | nil => simp
    | cons c l ih =>
      simp only [List.map_cons, List.sum_cons, List.length_cons]
      rw [utf16Units_length]
      split <;> omega
  omega

theorem writeString_out (s : String) : (writeString s).err = none ∧ (writeString s).out = varint (utf8 s).length ++ utf8 s := by
  unfold writeString
  simp only [writeVInt_nat]
  split
  · exact ⟨rfl, rfl⟩
  · next h =>
    have : utf8 s = [] := List.eq_nil_of_length_eq_zero (by omega)
    rw [this]; exact ⟨rfl, rfl⟩

/-- **C105** (ASCII texts).  The extension writes an ASCII text exactly as a node does, and reads what a node writes for it. -/
theorem C105_ascii_partial (s : String) (h : Ascii s) :
    (writeString s).err = none ∧ IsNodeString (writeString s).out s ∧
    (s.length ≤ 2 ^ 31 → ∀ bs rest, IsNodeString bs s → readString (bs ++ rest) = .ok (s, rest)) := by
  obtain ⟨e1, e2⟩ := writeString_out s
  refine ⟨e1, ⟨varint (utf8 s).length, ?_, ?_⟩, ?_⟩
  · rw [javaChars_ascii_length h]; exact isVarint_varint _
  · rw [e2, javaChars_ascii h]
  · rintro hl bs rest ⟨v, h1, rfl⟩
    rw [isVarint_unique h1, javaChars_ascii_length h, javaChars_ascii h, ← e2]
    exact (C08_roundtrip s (by rw [utf8_length_ascii h]; exact hl)).2 rest

/-- **C105** (exactly these).  A text is written as a node writes it only if it is ASCII. -/
theorem C105_exact (s : String) (hl : (utf8 s).length < 2 ^ 35) :
    IsNodeString (writeString s).out s ↔ Ascii s := by
  refine ⟨?_, fun h => (C105_ascii_partial s h).2.1⟩
  rintro ⟨v, h1, h2⟩
  rw [(writeString_out s).2, isVarint_unique h1] at h2
  by_contra ha
  have hlt := (javaChars_le s).2 ha
  have r1 := (rt_vint (n := (utf8 s).length) hl).2 (utf8 s)
  rw [writeVInt_nat_out, h2] at r1
  have r2 := (rt_vint (n := (javaChars s).length) (by omega)).2 ((javaChars s).flatMap unitBytes)
  rw [writeVInt_nat_out, r1] at r2
  simp only [Except.ok.injEq, Prod.mk.injEq] at r2
  omega

/-- **C105, violated** for every text that is not ASCII: whatever follows, the extension does not read what a node wrote.
It raises, or it returns a shorter text and stays in the middle of the string, so that all that follows is read from the
wrong place. -/
theorem C105_reads_violated (s : String) (h : ¬ Ascii s) (hl : (javaChars s).length < 2 ^ 31) (bs rest : Bytes)
    (hb : IsNodeString bs s) :
    (∃ e, readString (bs ++ rest) = .error e) ∨
    (∃ t rest', readString (bs ++ rest) = .ok (t, rest') ∧ (utf8 t).length < (utf8 s).length ∧
      ∃ left, left ≠ [] ∧ rest' = left ++ rest ∧ bs = (writeString t).out ++ left) := by
  obtain ⟨v, h1, rfl⟩ := hb
  have hv := isVarint_unique h1
  subst hv
  cases hr : readString (varint (javaChars s).length ++ (javaChars s).flatMap unitBytes ++ rest) with
  | error e => exact .inl ⟨e, rfl⟩
  | ok p =>
    obtain ⟨t, rest'⟩ := p
    right
    refine ⟨t, rest', rfl, ?_⟩
    obtain ⟨n, a1, a2⟩ := C08_accepts_only_utf8 _ _ _ hr
    have r2 := (rt_arraySize (n := (javaChars s).length) (by omega)).2 ((javaChars s).flatMap unitBytes ++ rest)
    rw [writeVInt_nat_out, ← List.append_assoc, a1] at r2
    simp only [Except.ok.injEq, Prod.mk.injEq, Nat.cast_inj] at r2
    obtain ⟨r2, r3⟩ := r2
    subst r2
    have hlt := (javaChars_le s).2 h
    have hbytes : (javaChars s).length < ((javaChars s).flatMap unitBytes).length := by
      have key : ∀ l : List Nat, l.length ≤ (l.flatMap unitBytes).length ∧
          ((∃ u ∈ l, 0x7F < u) → l.length < (l.flatMap unitBytes).length) := by
        intro l
        induction l with
        | nil => simp
        | cons u l ih =>
          rw [List.flatMap_cons, List.length_append, List.length_cons]
          have hu : 1 ≤ (unitBytes u).length ∧ (0x7F < u → 1 < (unitBytes u).length) := by
            unfold unitBytes
            split
            · exact ⟨Nat.le_refl _, fun h => by omega⟩
            · split <;> simp
          refine ⟨by omega, ?_⟩
          rintro ⟨w, hw, hgt⟩
          rcases List.mem_cons.1 hw with rfl | hw
          · have := hu.2 hgt; omega
          · have := ih.2 ⟨w, hw, hgt⟩; omega
      apply (key _).2
      unfold Ascii at h
      push Not at h
      obtain ⟨c, hc, hge⟩ := h
      have hge : 128 ≤ c.toNat := by
        rw [UInt32.lt_iff_toNat_lt] at hge
        have e : (128 : UInt32).toNat = 128 := rfl
        have e' : c.toNat = c.val.toNat := rfl
        omega
      unfold javaChars
      by_cases hb : c.toNat < 0x10000
      · exact ⟨c.toNat, List.mem_flatMap.2 ⟨c, hc, by unfold utf16Units; rw [if_pos hb]; simp⟩, by omega⟩
      · exact ⟨0xD800 + (c.toNat - 0x10000) / 0x400, List.mem_flatMap.2 ⟨c, hc, by unfold utf16Units; rw [if_neg hb]; simp⟩, by omega⟩
    have hn : (utf8 t).length = (javaChars s).length := by
      rcases a2 with a2 | ⟨a2, rfl⟩
      · exact a2
      · have := congrArg List.length r3
        simp only [List.length_append, List.length_nil] at this
        omega
    refine ⟨by omega, ?_⟩
    have e := congrArg (List.drop (utf8 t).length) r3
    rw [List.drop_left, List.drop_append_of_le_length (by omega)] at e
    refine ⟨_, ?_, e, ?_⟩
    · intro hh
      have := congrArg List.length hh
      simp only [List.length_drop, List.length_nil] at this
      omega
    · have e' := congrArg (List.take (utf8 t).length) r3
      rw [List.take_left, List.take_append_of_le_length (by omega)] at e'
      rw [(writeString_out t).2, hn, List.append_assoc]
      congr 1
      rw [← hn]
      conv_lhs => rw [← List.take_append_drop (utf8 t).length ((javaChars s).flatMap unitBytes), ← e']

/-! ## Cases that meet the hypotheses -/

/-- C105: "é" from a node is an error; of "éé" the first half is read and the second half left. -/
example : ¬ Ascii "é" ∧ readString ([1, 0xC3, 0xA9] ++ [7]) = .error .unicode ∧
    readString ([2, 0xC3, 0xA9, 0xC3, 0xA9] ++ [7]) = .ok ("é", [0xC3, 0xA9, 7]) := by decide +kernel

theorem isVarint_small {s : String} {n : Nat} {b : UInt8} (h : (javaChars s).length = n) (hb : varint n = [b]) :
    IsVarint [b] (javaChars s).length := by rw [h, ← hb]; exact isVarint_varint n

example : IsNodeString [2, 0xC3, 0xA9, 0xC3, 0xA9] "éé" :=
  ⟨[2], isVarint_small (n := 2) (by decide +kernel) (by decide +kernel), by decide +kernel⟩

/-- C105: a character outside the basic plane takes two units of three bytes. -/
example : IsNodeString [2, 0xED, 0xA0, 0xBD, 0xED, 0xB8, 0x80] "😀" :=
  ⟨[2], isVarint_small (n := 2) (by decide +kernel) (by decide +kernel), by decide +kernel⟩

example := C105_ascii_partial "GET /hello" (by decide +kernel)
example := C105_exact "né" (by decide +kernel)
example := C105_reads_violated "éé" (by decide +kernel) (by decide +kernel) [2, 0xC3, 0xA9, 0xC3, 0xA9] [7]
  ⟨[2], isVarint_small (n := 2) (by decide +kernel) (by decide +kernel), by decide +kernel⟩

end Verif
