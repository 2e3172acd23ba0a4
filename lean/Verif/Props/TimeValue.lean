import Verif.Spec.Text
import Mathlib.Tactic.Ring
import Mathlib.Tactic.Positivity
import Mathlib.Tactic.Linarith
import Verif.Lemmas.Text
import Verif.Lemmas.Interp
import Verif.Spec.Units
/-!
# C57, C58: time and byte-size values
-/

namespace Verif
open Py

variable (u : Unicode)

/-! ## C58 -/

/-- C58: `to_nanos` multiplies exactly by the standard factor. -/
theorem C58_nanos (v : TimeValue) : v.toNanos = v.duration * nanosIn v.time_unit := by
  obtain ⟨d, t⟩ := v
  cases t <;> simp only [TimeValue.toNanos, nanosIn] <;> ring

/-- C58: `to_bytes` multiplies exactly by the standard factor. -/
theorem C58_bytes (v : ByteSizeValue) : v.toBytes = v.size * bytesIn v.unit := by
  obtain ⟨d, t⟩ := v
  cases t <;> simp only [ByteSizeValue.toBytes, bytesIn] <;> ring

/-- C58: the conversions preserve order (strictly, so they are injective) within a unit, and a
non-negative value gets larger when the unit does. -/
theorem C58_monotone (a b : Int) (t t' : TimeUnit) :
    (a < b ↔ (TimeValue.mk a t).toNanos < (TimeValue.mk b t).toNanos) ∧
    (0 ≤ a → t.value ≤ t'.value → (TimeValue.mk a t).toNanos ≤ (TimeValue.mk a t').toNanos) := by
  constructor
  · rw [C58_nanos, C58_nanos]
    cases t <;> simp only [nanosIn] <;> omega
  · intro h ht
    rw [C58_nanos, C58_nanos]
    have : nanosIn t ≤ nanosIn t' := by
      cases t <;> cases t' <;> simp only [nanosIn, TimeUnit.value] at ht ⊢ <;> omega
    exact Int.mul_le_mul_of_nonneg_left this h


theorem C58_monotone_bytes (a b : Int) (t t' : ByteSizeUnit) :
    (a < b ↔ (ByteSizeValue.mk a t).toBytes < (ByteSizeValue.mk b t).toBytes) ∧
    (0 ≤ a → t.value ≤ t'.value → (ByteSizeValue.mk a t).toBytes ≤ (ByteSizeValue.mk a t').toBytes) := by
  constructor
  · rw [C58_bytes, C58_bytes]
    cases t <;> simp only [bytesIn] <;> omega
  · intro h ht
    rw [C58_bytes, C58_bytes]
    have : bytesIn t ≤ bytesIn t' := by
      cases t <;> cases t' <;> simp only [bytesIn, ByteSizeUnit.value] at ht ⊢ <;> omega
    exact Int.mul_le_mul_of_nonneg_left this h

/-! ## C57: text -/

/-- C57: the text form of a time value is its number and the abbreviation. -/
theorem C57_time_text {v : TimeValue} {s : String} (h : v.str u = .ok s) :
    s = toString v.duration ++ timeSuffix v.time_unit := by
  obtain ⟨d, t⟩ := v
  have hr : reverseLookup TIME_UNIT_MAPPING t = some (timeSuffix t) := by cases t <;> decide
  unfold TimeValue.str at h
  simp only [hr] at h
  cases hs : strInt u d with
  | error e => rw [hs] at h; simp [Except.map] at h
  | ok x => rw [hs] at h; simp only [Except.map, Except.ok.injEq] at h; rw [← h, strInt_eq u hs]

example := C57_time_text asciiUnicode (v := ⟨-5, .HOURS⟩) (s := "-5h") (by decide +kernel)

/-- C57: the text form of a byte-size value is its number and the abbreviation. -/
theorem C57_bytes_text {v : ByteSizeValue} {s : String} (h : v.str u = .ok s) :
    s = toString v.size ++ byteSuffix v.unit := by
  obtain ⟨d, t⟩ := v
  have hr : reverseLookup BYTE_SIZE_UNIT_MAPPING t = some (byteSuffix t) := by cases t <;> decide
  unfold ByteSizeValue.str at h
  simp only [hr] at h
  cases hs : strInt u d with
  | error e => rw [hs] at h; simp [Except.map] at h
  | ok x => rw [hs] at h; simp only [Except.map, Except.ok.injEq] at h; rw [← h, strInt_eq u hs]

example := C57_bytes_text asciiUnicode (v := ⟨-5, .KB⟩) (s := "-5kb") (by decide +kernel)

theorem timeValue_str {d : Int} {t : TimeUnit} (h : d.natAbs < 10 ^ 640) :
    (TimeValue.mk d t).str u = .ok (toString d ++ timeSuffix t) := by
  have hr : reverseLookup TIME_UNIT_MAPPING t = some (timeSuffix t) := by cases t <;> decide
  unfold TimeValue.str
  simp only [hr, strInt_ok u h, Except.map]

theorem byteSizeValue_str {d : Int} {t : ByteSizeUnit} (h : d.natAbs < 10 ^ 640) :
    (ByteSizeValue.mk d t).str u = .ok (toString d ++ byteSuffix t) := by
  have hr : reverseLookup BYTE_SIZE_UNIT_MAPPING t = some (byteSuffix t) := by cases t <;> decide
  unfold ByteSizeValue.str
  simp only [hr, strInt_ok u h, Except.map]

/-- C57: every value of up to 640 digits has a text form (CPython's `str` of a number refuses longer ones only if it is
configured to, and never to fewer digits than 640). -/
theorem C57_has_text (d : Int) (h : d.natAbs < 10 ^ 640) (t : TimeUnit) (b : ByteSizeUnit) :
    (TimeValue.mk d t).str u = .ok (toString d ++ timeSuffix t) ∧
    (ByteSizeValue.mk d b).str u = .ok (toString d ++ byteSuffix b) :=
  ⟨timeValue_str u h, byteSizeValue_str u h⟩

example := C57_has_text asciiUnicode (-5) (by decide +kernel) .HOURS .KB

/-! ## C57: parsing the text -/

theorem digit_val {c : Char} (h : c.isDigit = true) : c.val < 128 ∧ c.toLower = c := by
  have h' := h
  simp only [Char.isDigit, Bool.and_eq_true, decide_eq_true_eq, UInt32.le_iff_toNat_le] at h
  have h57 : c.val.toNat ≤ 57 := h.2
  constructor
  · rw [UInt32.lt_iff_toNat_lt]
    show c.val.toNat < 128
    omega
  · unfold Char.toLower
    rw [dif_neg]
    simp only [UInt32.le_iff_toNat_le, ge_iff_le, not_and]
    intro h1
    exfalso
    have : (65 : Nat) ≤ c.val.toNat := h1
    omega

/-- Digits followed by lower-case letters are not changed by `lower()`, and the regular expression
splits them there. -/
theorem match_text {n : Nat} {w : String} (hw : w.toList ≠ []) (hl : ∀ c ∈ w.toList, c.isLower = true)
    (hid : w.toList.map Char.toLower = w.toList) :
    matchValue u (u.lower (toString n ++ w)) = some (toString n, w) := by
  have hlow : u.lower (toString n ++ w) = toString n ++ w := by
    rw [u.lower_ascii]
    · rw [String.toList_append, List.map_append, hid]
      have : (toString n).toList.map Char.toLower = (toString n).toList := by
        rw [toString_nat_toList]
        exact (List.map_congr_left
          (fun c hc => (digit_val (toDigits_isDigit n c hc)).2)).trans (List.map_id _)
      rw [this, ← String.toList_append, String.ofList_toList]
    · intro c hc
      rw [String.toList_append, List.mem_append, toString_nat_toList] at hc
      rcases hc with hc | hc
      · exact (digit_val (toDigits_isDigit n c hc)).1
      · have h := hl c hc
        simp only [Char.isLower, Bool.and_eq_true, decide_eq_true_eq, UInt32.le_iff_toNat_le, ge_iff_le] at h
        have h1 : c.val.toNat ≤ 122 := h.2
        rw [UInt32.lt_iff_toNat_lt]
        show c.val.toNat < 128
        omega
  rw [hlow]
  unfold matchValue
  rw [String.toList_append, toString_nat_toList]
  have := matchFrom_digits u (ds := Nat.toDigits 10 n) (w := w.toList) Nat.toDigits_ne_nil
    (fun c hc => by rw [u.digit_ascii c (toDigits_isDigit n c hc)]; rfl) hw
    (fun c hc => (u.lower_word c (hl c hc)).1)
    (fun c hc => (u.lower_word c (hl c (List.mem_of_mem_head? hc))).2)
  unfold leading at this
  rw [this]
  simp only [Option.map_some, String.ofList_toList, Option.some.injEq, Prod.mk.injEq, and_true]
  rw [Nat.toString_eq_ofList_toDigits]

/-- C57: a non-negative time value is parsed back from its text form. -/
theorem C57_time_roundtrip {v : TimeValue} {s : String} (h0 : 0 ≤ v.duration) (h : v.str u = .ok s) :
    TimeValue.parse u s = .ok v := by
  have hs := C57_time_text u h
  obtain ⟨d, t⟩ := v
  obtain ⟨n, rfl⟩ := Int.eq_ofNat_of_zero_le h0
  simp only [toString_int_nat] at hs
  subst hs
  have hnum : intOfStr u (toString n) = .ok (n : Int) := by
    have hr : reverseLookup TIME_UNIT_MAPPING t = some (timeSuffix t) := by cases t <;> decide
    unfold TimeValue.str at h
    simp only [hr] at h
    cases hx : strInt u n with
    | error e => rw [hx] at h; simp [Except.map] at h
    | ok x =>
      have := strInt_eq u hx
      rw [toString_int_nat] at this
      subst this
      exact intOfStr_strInt u hx
  unfold TimeValue.parse
  rw [match_text u (by cases t <;> decide) (by cases t <;> decide) (by cases t <;> decide)]
  simp only [hnum]
  have hl : lookup TIME_UNIT_MAPPING (timeSuffix t) = some t := by cases t <;> decide
  rw [hl]

example := C57_time_roundtrip asciiUnicode (v := ⟨5, .HOURS⟩) (s := "5h") (by decide) (by decide +kernel)

/-- C57: a non-negative byte-size value is parsed back from its text form. -/
theorem C57_bytes_roundtrip {v : ByteSizeValue} {s : String} (h0 : 0 ≤ v.size) (h : v.str u = .ok s) :
    ByteSizeValue.parse u s = .ok v := by
  have hs := C57_bytes_text u h
  obtain ⟨d, t⟩ := v
  obtain ⟨n, rfl⟩ := Int.eq_ofNat_of_zero_le h0
  simp only [toString_int_nat] at hs
  subst hs
  have hnum : intOfStr u (toString n) = .ok (n : Int) := by
    have hr : reverseLookup BYTE_SIZE_UNIT_MAPPING t = some (byteSuffix t) := by cases t <;> decide
    unfold ByteSizeValue.str at h
    simp only [hr] at h
    cases hx : strInt u n with
    | error e => rw [hx] at h; simp [Except.map] at h
    | ok x =>
      have := strInt_eq u hx
      rw [toString_int_nat] at this
      subst this
      exact intOfStr_strInt u hx
  unfold ByteSizeValue.parse
  rw [match_text u (by cases t <;> decide) (by cases t <;> decide) (by cases t <;> decide)]
  simp only [hnum]
  have hl : lookup BYTE_SIZE_UNIT_MAPPING (ByteSizeValue.withB (byteSuffix t)) = some t := by cases t <;> decide
  rw [hl]

example := C57_bytes_roundtrip asciiUnicode (v := ⟨5, .KB⟩) (s := "5kb") (by decide) (by decide +kernel)

theorem startsWith_of_match {s d w : String} {n : Int} (h : matchValue u s = some (d, w))
    (hn : intOfStr u d = .ok n) (hw : ∀ c ∈ w.toList.head?, u.digitVal c = none) :
    ∃ k : Nat, n = k ∧ StartsWith u s k w := by
  unfold matchValue at h
  simp only [Option.map_eq_some_iff] at h
  obtain ⟨⟨dl, wl⟩, hm, heq⟩ := h
  simp only [Prod.mk.injEq] at heq
  obtain ⟨rfl, rfl⟩ := heq
  rw [String.toList_ofList] at hw
  obtain ⟨h1, h2, h3⟩ := matchFrom_leading u hm hw
  obtain ⟨h4, h5⟩ := matchUnit_some u h3
  have hdig : ∀ c ∈ dl, (u.digitVal c).isSome := by
    intro c hc
    rw [h1] at hc
    have hall : (s.toList.takeWhile fun c => (u.digitVal c).isSome).all (fun c => (u.digitVal c).isSome) = true :=
      List.all_takeWhile
    exact List.all_eq_true.1 hall c hc
  rw [intOfStr_digits u (by rw [String.toList_ofList]; exact h2) (by rw [String.toList_ofList]; exact hdig),
    String.toList_ofList] at hn
  cases hk : natOfChars u dl with
  | error e => rw [hk] at hn; simp [Except.map] at hn
  | ok k =>
    rw [hk] at hn
    have hn : (k : Int) = n := by
      change Except.ok (k : Int) = Except.ok n at hn
      exact Except.ok.inj hn
    obtain ⟨ds, e1, e2⟩ := natOfChars_digits u h2 hdig hk
    refine ⟨k, hn.symm, dl, (s.toList.dropWhile fun c => (u.digitVal c).isSome).takeWhile u.isSpace,
      ((s.toList.dropWhile fun c => (u.digitVal c).isSome).dropWhile u.isSpace).dropWhile u.isWord, ds,
      ?_, h2, e1, e2, ?_, ?_, ?_⟩
    · rw [String.toList_ofList, h5, List.takeWhile_append_dropWhile, List.takeWhile_append_dropWhile, h1,
        List.takeWhile_append_dropWhile]
    · exact fun c hc => List.all_eq_true.1 List.all_takeWhile c hc
    · rw [String.toList_ofList, h5]
      exact fun c hc => List.all_eq_true.1 List.all_takeWhile c hc
    · intro c hc
      have := List.head?_dropWhile_not u.isWord
        ((s.toList.dropWhile fun c => (u.digitVal c).isSome).dropWhile u.isSpace)
      rw [Option.mem_def] at hc
      rw [hc] at this
      simpa using this

theorem lookup_mem {α : Type} {m : List (String × α)} {k : String} {v : α} (h : lookup m k = some v) :
    (k, v) ∈ m := by
  unfold lookup at h
  simp only [Option.map_eq_some_iff] at h
  obtain ⟨⟨k', v'⟩, hf, rfl⟩ := h
  have h1 := List.mem_of_find?_eq_some hf
  have h2 := List.find?_some hf
  simp only [beq_iff_eq] at h2
  subst h2
  exact h1

/-- C57: parsing a time value gives the number at the start of the (lower-cased) text, with the unit
whose abbreviation follows it; it is never negative. -/
theorem C57_time_parse {value : String} {v : TimeValue} (h : TimeValue.parse u value = .ok v) :
    0 ≤ v.duration ∧ StartsWith u (u.lower value) v.duration.toNat (timeSuffix v.time_unit) := by
  unfold TimeValue.parse at h
  split at h
  · simp at h
  · next d w hm =>
    split at h
    · simp at h
    · next n hn =>
      split at h
      · next t ht =>
        simp only [Except.ok.injEq] at h
        subst h
        have hmem := lookup_mem ht
        have hsuf : w = timeSuffix t := by
          simp only [TIME_UNIT_MAPPING, List.mem_cons, Prod.mk.injEq, List.not_mem_nil, or_false] at hmem
          rcases hmem with ⟨rfl, rfl⟩ | ⟨rfl, rfl⟩ | ⟨rfl, rfl⟩ | ⟨rfl, rfl⟩ | ⟨rfl, rfl⟩ | ⟨rfl, rfl⟩ | ⟨rfl, rfl⟩ <;> rfl
        subst hsuf
        obtain ⟨k, rfl, hs⟩ := startsWith_of_match u hm hn (by
          intro c hc
          refine (u.lower_word c ?_).2
          have hc' := List.mem_of_mem_head? hc
          revert c
          cases t <;> decide)
        exact ⟨Int.natCast_nonneg k, by simpa using hs⟩
      · simp at h

example := C57_time_parse asciiUnicode (value := "90 Micros!") (v := ⟨90, .MICROSECONDS⟩) (by decide +kernel)

/-- C57: the same for byte sizes; the final `b` may be left out. -/
theorem C57_bytes_parse {value : String} {v : ByteSizeValue} (h : ByteSizeValue.parse u value = .ok v) :
    0 ≤ v.size ∧ ∃ unit, (unit = byteSuffix v.unit ∨ unit ++ "b" = byteSuffix v.unit) ∧
      StartsWith u (u.lower value) v.size.toNat unit := by
  unfold ByteSizeValue.parse at h
  split at h
  · simp at h
  · next d w hm =>
    split at h
    · simp at h
    · next n hn =>
      split at h
      · next t ht =>
        simp only [Except.ok.injEq] at h
        subst h
        have hmem := lookup_mem ht
        have hsuf : ByteSizeValue.withB w = byteSuffix t := by
          generalize ByteSizeValue.withB w = x at hmem
          simp only [BYTE_SIZE_UNIT_MAPPING, List.mem_cons, Prod.mk.injEq, List.not_mem_nil, or_false] at hmem
          rcases hmem with ⟨rfl, rfl⟩ | ⟨rfl, rfl⟩ | ⟨rfl, rfl⟩ | ⟨rfl, rfl⟩ | ⟨rfl, rfl⟩ | ⟨rfl, rfl⟩ <;> rfl
        have hor : w = byteSuffix t ∨ w ++ "b" = byteSuffix t := by
          unfold ByteSizeValue.withB at hsuf
          split at hsuf
          · exact .inl hsuf
          · exact .inr hsuf
        have hlower : ∀ c ∈ (byteSuffix t).toList, c.isLower = true := by cases t <;> decide
        obtain ⟨k, rfl, hs⟩ := startsWith_of_match u hm hn (by
          intro c hc
          refine (u.lower_word c (hlower c ?_)).2
          have hc' := List.mem_of_mem_head? hc
          rcases hor with e | e
          · rw [← e]; exact hc'
          · rw [← e, String.toList_append]; exact List.mem_append_left _ hc')
        exact ⟨Int.natCast_nonneg k, w, hor, by simpa using hs⟩
      · simp at h

example := C57_bytes_parse asciiUnicode (value := "007K") (v := ⟨7, .KB⟩) (by decide +kernel)

/-- The number of a text, spaces and unit that the parsers look for. -/
theorem match_full {value unit : String} {digits spaces rest : List Char} {ds : List Nat}
    (h : value.toList = digits ++ (spaces ++ (unit.toList ++ rest))) (hne : digits ≠ [])
    (hlen : digits.length ≤ 640) (hd : digits.map u.digitVal = ds.map some)
    (hsp : ∀ c ∈ spaces, u.isSpace c = true) (hu : unit.toList ≠ []) (hl : ∀ c ∈ unit.toList, c.isLower = true)
    (hrest : ∀ c ∈ rest.head?, u.isWord c = false) :
    matchValue u value = some (String.ofList digits, unit) ∧
      intOfStr u (String.ofList digits) = .ok (ofDigits ds : Int) := by
  have hdig : ∀ c ∈ digits, (u.digitVal c).isSome := by
    intro c hc
    have : u.digitVal c ∈ digits.map u.digitVal := List.mem_map.2 ⟨c, hc, rfl⟩
    rw [hd] at this
    obtain ⟨x, -, hx⟩ := List.mem_map.1 this
    rw [← hx]; rfl
  constructor
  · unfold matchValue
    rw [h]
    have := matchFrom_full u hne hdig hsp hu (fun c hc => (u.lower_word c (hl c hc)).1)
      (fun c hc => (u.lower_word c (hl c (List.mem_of_mem_head? hc))).2) hrest
    unfold leading at this
    rw [this]
    simp
  · rw [intOfStr_digits u (by rw [String.toList_ofList]; exact hne) (by rw [String.toList_ofList]; exact hdig),
      String.toList_ofList]
    obtain ⟨ds', e1, e2⟩ := intDigits_digits u digits hne hdig
    have : ds' = ds := by
      rw [hd] at e2
      exact (List.map_injective_iff.2 (Option.some_injective _) e2).symm
    subst this
    unfold natOfChars
    rw [e1]
    have hlen' : ds'.length = digits.length := by
      have := congrArg List.length hd
      simpa using this.symm
    have ha : allowed u ds'.length = true := by
      unfold allowed
      cases hm : u.maxDigits with
      | none => rfl
      | some m => have := u.maxDigits_ge m hm; simp only [decide_eq_true_eq]; omega
    simp only [ha, if_true]
    rfl

/-- C57: every text that starts with a number of up to 640 digits, spaces and the abbreviation of a unit
(in any case: the text is lower-cased first) is parsed as that number of that unit. -/
theorem C57_time_accepts {value : String} {digits spaces rest : List Char} {ds : List Nat} {t : TimeUnit}
    (h : (u.lower value).toList = digits ++ (spaces ++ ((timeSuffix t).toList ++ rest))) (hne : digits ≠ [])
    (hlen : digits.length ≤ 640) (hd : digits.map u.digitVal = ds.map some)
    (hsp : ∀ c ∈ spaces, u.isSpace c = true) (hrest : ∀ c ∈ rest.head?, u.isWord c = false) :
    TimeValue.parse u value = .ok ⟨ofDigits ds, t⟩ := by
  obtain ⟨h1, h2⟩ := match_full u h hne hlen hd hsp (by cases t <;> decide) (by cases t <;> decide) hrest
  unfold TimeValue.parse
  rw [h1]
  simp only [h2]
  have hl : lookup TIME_UNIT_MAPPING (timeSuffix t) = some t := by cases t <;> decide
  rw [hl]

example := C57_time_accepts asciiUnicode (value := "07 Micros!") (digits := ['0', '7']) (spaces := [' ']) (rest := ['!'])
  (ds := [0, 7]) (t := .MICROSECONDS) (by decide +kernel) (by decide) (by decide) (by decide +kernel) (by decide +kernel)
  (by decide +kernel)

/-- C57: the same for byte sizes, where the final `b` may be left out (of "b" itself it may not). -/
theorem C57_bytes_accepts {value unit : String} {digits spaces rest : List Char} {ds : List Nat} {t : ByteSizeUnit}
    (h : (u.lower value).toList = digits ++ (spaces ++ (unit.toList ++ rest))) (hne : digits ≠ [])
    (hunit : unit = byteSuffix t ∨ (unit ≠ "" ∧ unit ++ "b" = byteSuffix t))
    (hlen : digits.length ≤ 640) (hd : digits.map u.digitVal = ds.map some)
    (hsp : ∀ c ∈ spaces, u.isSpace c = true) (hrest : ∀ c ∈ rest.head?, u.isWord c = false) :
    ByteSizeValue.parse u value = .ok ⟨ofDigits ds, t⟩ := by
  have hlow : ∀ c ∈ (byteSuffix t).toList, c.isLower = true := by cases t <;> decide
  have hu : unit.toList ≠ [] := by
    rcases hunit with rfl | ⟨h0, -⟩
    · cases t <;> decide
    · intro e; exact h0 (by rw [← String.ofList_toList (s := unit), e])
  have hl : ∀ c ∈ unit.toList, c.isLower = true := by
    rcases hunit with rfl | ⟨-, e⟩
    · exact hlow
    · intro c hc; apply hlow; rw [← e, String.toList_append]; exact List.mem_append_left _ hc
  obtain ⟨h1, h2⟩ := match_full u h hne hlen hd hsp hu hl hrest
  have hb : ByteSizeValue.withB unit = byteSuffix t := by
    unfold ByteSizeValue.withB
    rcases hunit with rfl | ⟨h0, e⟩
    · cases t <;> decide
    · rw [if_neg, e]
      intro hlast
      have hlen2 : (unit ++ "b").toList.length = (byteSuffix t).toList.length := by rw [e]
      have hu' : unit = String.ofList ((byteSuffix t).toList.dropLast) := by
        rw [← e, String.toList_append]
        simp
      rw [hu', String.toList_ofList] at hlast
      revert hlast
      cases t <;> decide
  unfold ByteSizeValue.parse
  rw [h1]
  simp only [h2, hb]
  have hl : lookup BYTE_SIZE_UNIT_MAPPING (byteSuffix t) = some t := by cases t <;> decide
  rw [hl]

example := C57_bytes_accepts asciiUnicode (value := "07 K") (unit := "k") (digits := ['0', '7']) (spaces := [' ']) (rest := [])
  (ds := [0, 7]) (t := .KB) (by decide +kernel) (by decide) (.inr (by decide +kernel)) (by decide) (by decide +kernel)
  (by decide +kernel) (by decide +kernel)

/-- C57: a text that starts with a minus sign - the text form of any negative value - is never parsed. -/
theorem C57_negative {value : String} {cs : List Char} (h : (u.lower value).toList = '-' :: cs) :
    TimeValue.parse u value = .error .value ∧ ByteSizeValue.parse u value = .error .value := by
  have hm : matchValue u (u.lower value) = none := by
    unfold matchValue
    rw [h, List.takeWhile_cons_of_neg (by simp [u.minus.1])]
    rfl
  unfold TimeValue.parse ByteSizeValue.parse
  rw [hm]
  exact ⟨rfl, rfl⟩

example := C57_negative asciiUnicode (value := "-1MS") (cs := ['1', 'm', 's']) (by decide +kernel)

/-! ## Cases that meet the hypotheses -/

example : TimeValue.parse asciiUnicode "90 Micros!" = .ok ⟨90, .MICROSECONDS⟩ := by decide +kernel
example : TimeValue.parse asciiUnicode "90" = .error .value := by decide +kernel
example : ByteSizeValue.parse asciiUnicode "007K" = .ok ⟨7, .KB⟩ := by decide +kernel
example : TimeValue.str asciiUnicode ⟨123456789012345678901, .DAYS⟩ = .ok "123456789012345678901d" := by decide +kernel

end Verif
