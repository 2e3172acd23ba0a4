import Verif.Props.Settings
/-!
# C67, C68, C69: defaults of settings, floating-point settings, setting types
-/

namespace Verif
open Py

variable (py : Interp)

/-! ## C67: the default of a setting -/

/-- C67: Boolean, string and version settings give their default when the key is absent (integer and long
settings: C54_default; floating-point settings: C68_default). -/
theorem C67_boolean (key : String) (default : Bool) (properties : List Property) (d : Dict String PyVal)
    (h : d.get? key = none) : (BooleanSetting key default properties).get py d = .ok default := by
  rw [C53_absent py _ d h]
  have hl : ∀ s : String, (∀ c ∈ s.toList, c.val < 128) → py.u.lower s = String.ofList (s.toList.map Char.toLower) :=
    py.u.lower_ascii
  cases default with
  | true =>
    change Except.ok (py.u.lower "True" == "true") = _
    rw [hl "True" (by decide)]
    rfl
  | false =>
    change Except.ok (py.u.lower "False" == "true") = _
    rw [hl "False" (by decide)]
    rfl

example := C67_boolean sampleInterp "k" true [.DYNAMIC] [("a", .int 1)] rfl

theorem C67_string {key default : String} {validator : Option (String → Except Err Unit)}
    {properties : List Property} {st : Setting TextParser}
    (hc : StringSetting key default validator properties = .ok st) {d : Dict String PyVal}
    (h : d.get? key = none) : st.get py d = .ok default := by
  obtain ⟨rfl, -⟩ := stringSetting_ok hc
  rw [C53_absent py _ d h]
  rfl

example := C67_string sampleInterp (key := "k") (default := "ab")
  (validator := some fun s => if s.length = 2 then .ok () else .error .value) (properties := []) rfl
  (d := [("a", .int 1)]) rfl

/-- A version with an id of at most 640 digits (wire versions have 32 bits). -/
theorem C67_version (key : String) (default : Version) (properties : List Property) (d : Dict String PyVal)
    (h : d.get? key = none) (hid : default.id.natAbs < 10 ^ 640) :
    (VersionSetting py key default properties).get py d = .ok default := by
  rw [C53_absent py _ d h]
  change (strInt py.u default.id >>= fun s => (intOfStr py.u s).map fun n => Version.new (Int.xor n Version.MASK)) = _
  have hs := strInt_ok py.u hid
  rw [hs, Except.ok_bind, intOfStr_strInt py.u hs]
  change Except.ok (Version.new (Int.xor default.id Version.MASK)) = _
  rw [version_new_xor]

example := C67_version sampleInterp "k" (Version.new 3000099) [] [("a", .int 1)] rfl (by decide +kernel)

theorem parse_time {p : TimeParser} {s : String} {v : TimeValue} (h1 : -1 ≤ p.min_value.duration)
    (h2 : -1 ≤ p.max_value.duration) (hp : TimeValue.parse py.u s = .ok v)
    (hw : TimeWithin p.min_value p.max_value v) : SettingParser.parse py p s = .ok v := by
  change (TimeValue.parse py.u s >>= fun v => p.boundsCheck v) = _
  rw [hp, Except.ok_bind]
  exact (time_boundsCheck_iff h1 h2 v v).2 ⟨rfl, hw⟩

theorem parse_size {p : SizeParser} {s : String} {v : ByteSizeValue} (h1 : -1 ≤ p.min_value.size)
    (h2 : -1 ≤ p.max_value.size) (hp : ByteSizeValue.parse py.u s = .ok v)
    (hw : SizeWithin p.min_value p.max_value v) : SettingParser.parse py p s = .ok v := by
  change (ByteSizeValue.parse py.u s >>= fun v => p.boundsCheck v) = _
  rw [hp, Except.ok_bind]
  exact (size_boundsCheck_iff h1 h2 v v).2 ⟨rfl, hw⟩

/-- C67, the part that holds for times: defaults that are not negative. -/
theorem C67_time_partial {key : String} {default min max : TimeValue} {properties : List Property}
    {st : Setting TimeParser} (hc : TimeValueSetting py key default min max properties = .ok st)
    (h0 : 0 ≤ default.duration) (hlt : default.duration.natAbs < 10 ^ 640) {d : Dict String PyVal}
    (h : d.get? key = none) : st.get py d = .ok default := by
  obtain ⟨rfl, h1, h2, hw⟩ := (timeSetting_iff py ..).1 hc
  rw [C53_absent py _ d h]
  have hs := timeValue_str py.u (t := default.time_unit) hlt
  change (default.str py.u >>= fun s => _) = _
  have hs' : default.str py.u = .ok (toString default.duration ++ timeSuffix default.time_unit) := hs
  rw [hs', Except.ok_bind]
  exact parse_time py h1 h2 (C57_time_roundtrip py.u h0 hs') hw

example := C67_time_partial sampleInterp (key := "t") (default := ⟨1, .DAYS⟩) (min := ⟨1, .HOURS⟩) (max := ⟨3, .DAYS⟩)
  (properties := []) rfl (by decide) (by decide +kernel) (d := [("a", .int 1)]) rfl

/-- C67, the part that holds for byte sizes: defaults that are not negative. -/
theorem C67_size_partial {key : String} {default min max : ByteSizeValue} {properties : List Property}
    {st : Setting SizeParser} (hc : ByteSizeValueSetting py key default min max properties = .ok st)
    (h0 : 0 ≤ default.size) (hlt : default.size.natAbs < 10 ^ 640) {d : Dict String PyVal}
    (h : d.get? key = none) : st.get py d = .ok default := by
  obtain ⟨rfl, h1, h2, hw⟩ := (sizeSetting_iff py ..).1 hc
  rw [C53_absent py _ d h]
  have hs := byteSizeValue_str py.u (t := default.unit) hlt
  change (default.str py.u >>= fun s => _) = _
  have hs' : default.str py.u = .ok (toString default.size ++ byteSuffix default.unit) := hs
  rw [hs', Except.ok_bind]
  exact parse_size py h1 h2 (C57_bytes_roundtrip py.u h0 hs') hw

example := C67_size_partial sampleInterp (key := "t") (default := ⟨1, .KB⟩) (min := ⟨1, .BYTES⟩) (max := ⟨-1, .KB⟩)
  (properties := []) rfl (by decide) (by decide +kernel) (d := [("a", .int 1)]) rfl

theorem lower_negative (n : Nat) (w : String) (hw : ∀ c ∈ w.toList, c.val < 128) :
    ∃ cs, (py.u.lower (toString (Int.negSucc n) ++ w)).toList = '-' :: cs := by
  have hl : (toString (Int.negSucc n) ++ w).toList = '-' :: (Nat.toDigits 10 (n + 1) ++ w.toList) := by
    rw [toString_int_neg, String.toList_append, String.toList_append, toString_nat_toList]
    rfl
  refine ⟨(Nat.toDigits 10 (n + 1) ++ w.toList).map Char.toLower, ?_⟩
  rw [py.u.lower_ascii, hl, String.toList_ofList]
  · rfl
  · intro c hc
    rw [hl] at hc
    rcases List.mem_cons.1 hc with rfl | hc
    · decide
    · rcases List.mem_append.1 hc with hc | hc
      · exact (digit_val (toDigits_isDigit _ c hc)).1
      · exact hw c hc

/-- C67 is violated by every negative default (such as the `MINUS_ONE` the class itself defines): the
setting can be constructed - without bounds it always can - but reading it with the key absent raises. -/
theorem C67_time_violated (key : String) (n : Nat) (t : TimeUnit) (hn : n < 10 ^ 639) (properties : List Property)
    (d : Dict String PyVal) (h : d.get? key = none) :
    ∃ st, TimeValueSetting py key ⟨Int.negSucc n, t⟩ (properties := properties) = .ok st ∧
      st.get py d = .error .value := by
  refine ⟨_, (timeSetting_iff py ..).2 ⟨rfl, by decide, by decide, .inl rfl, .inl rfl⟩, ?_⟩
  rw [C53_absent py _ d h]
  have hs := timeValue_str py.u (d := Int.negSucc n) (t := t) (Nat.lt_of_le_of_lt (Nat.succ_le_of_lt hn) (Nat.pow_lt_pow_right (by decide) (by decide)))
  change (TimeValue.str py.u ⟨Int.negSucc n, t⟩ >>= fun s => (TimeValue.parse py.u s >>= fun v => _)) = _
  obtain ⟨cs, hcs⟩ := lower_negative py n (timeSuffix t) (by cases t <;> decide)
  rw [hs, Except.ok_bind, (C57_negative py.u hcs).1]
  rfl

example := C67_time_violated sampleInterp "t" 0 .MILLISECONDS (by decide +kernel) [] [("a", .int 1)] rfl

theorem C67_size_violated (key : String) (n : Nat) (t : ByteSizeUnit) (hn : n < 10 ^ 639) (properties : List Property)
    (d : Dict String PyVal) (h : d.get? key = none) :
    ∃ st, ByteSizeValueSetting py key ⟨Int.negSucc n, t⟩ (properties := properties) = .ok st ∧
      st.get py d = .error .value := by
  refine ⟨_, (sizeSetting_iff py ..).2 ⟨rfl, by decide, by decide, .inl rfl, .inl rfl⟩, ?_⟩
  rw [C53_absent py _ d h]
  have hs := byteSizeValue_str py.u (d := Int.negSucc n) (t := t) (Nat.lt_of_le_of_lt (Nat.succ_le_of_lt hn) (Nat.pow_lt_pow_right (by decide) (by decide)))
  change (ByteSizeValue.str py.u ⟨Int.negSucc n, t⟩ >>= fun s => (ByteSizeValue.parse py.u s >>= fun v => _)) = _
  obtain ⟨cs, hcs⟩ := lower_negative py n (byteSuffix t) (by cases t <;> decide)
  rw [hs, Except.ok_bind, (C57_negative py.u hcs).2]
  rfl

example := C67_size_violated sampleInterp "t" 0 .BYTES (by decide +kernel) [] [("a", .int 1)] rfl

/-! ## C68: floating-point settings -/

theorem floatingSetting_ok {type : SettingType} {key : String} {default min max : F64} {properties : List Property}
    {st : Setting FloatParser} (h : FloatingSetting py type key default min max properties = .ok st) :
    st = ⟨type, key, fun _ => .ok (py.float.str default), ⟨min, max, key, false⟩, none, [.tuple properties]⟩ ∧
      min.le default = true ∧ default.le max = true := by
  unfold FloatingSetting at h
  simp only at h
  cases hb : (FloatParser.new min max key [.tuple properties]).boundsCheck default with
  | error e => rw [hb, Except.error_bind] at h; simp at h
  | ok r =>
    rw [hb, Except.ok_bind] at h
    unfold FloatParser.boundsCheck at hb
    split at hb
    · simp at hb
    · next hc =>
      simp only [not_not] at hc
      exact ⟨(Except.ok.inj h).symm, hc⟩

/-- C68: whatever is stored, a float or double setting raises or gives a number - never NaN - between its
bounds, which are not NaN either. -/
theorem C68_bounds {type : SettingType} {key : String} {default min max : F64} {properties : List Property}
    {st : Setting FloatParser} (hc : FloatingSetting py type key default min max properties = .ok st)
    {d : Dict String PyVal} {x : F64} (h : st.get py d = .ok x) :
    min.isNaN = false ∧ x.isNaN = false ∧ max.isNaN = false ∧ min.key ≤ x.key ∧ x.key ≤ max.key := by
  obtain ⟨rfl, -, -⟩ := floatingSetting_ok py hc
  obtain ⟨s, hs, -⟩ := get_parsed py h
  change (py.float.parse s >>= fun v => FloatParser.boundsCheck ⟨min, max, key, false⟩ v) = _ at hs
  cases hp : py.float.parse s with
  | error e => rw [hp, Except.error_bind] at hs; simp at hs
  | ok v =>
    rw [hp, Except.ok_bind] at hs
    unfold FloatParser.boundsCheck at hs
    split at hs
    · simp at hs
    · next hb =>
      have := Except.ok.inj hs
      subst this
      simp only [not_not, F64.le, Bool.and_eq_true, Bool.not_eq_true', decide_eq_true_eq] at hb
      obtain ⟨⟨⟨h1, h2⟩, h3⟩, ⟨-, h5⟩, h6⟩ := hb
      exact ⟨h1, h2, h5, h3, h6⟩

example := C68_bounds sampleInterp (type := .DOUBLE) (key := "x") (default := ⟨5, by decide⟩) (min := ⟨0, by decide⟩)
  (max := posInf) (properties := []) rfl (d := [("x", .str "7")]) (x := ⟨7, by decide⟩) (by decide +kernel)

/-- C68: an absent key gives the default. -/
theorem C68_default {type : SettingType} {key : String} {default min max : F64} {properties : List Property}
    {st : Setting FloatParser} (hc : FloatingSetting py type key default min max properties = .ok st)
    {d : Dict String PyVal} (h : d.get? key = none) : st.get py d = .ok default := by
  obtain ⟨rfl, h1, h2⟩ := floatingSetting_ok py hc
  rw [C53_absent py _ d h]
  have hn : default.isNaN = false := by
    simp only [F64.le, Bool.and_eq_true, Bool.not_eq_true'] at h1
    exact h1.1.2
  change (py.float.parse (py.float.str default) >>= fun v => FloatParser.boundsCheck ⟨min, max, key, false⟩ v) = _
  rw [py.float.parse_str default hn, Except.ok_bind]
  unfold FloatParser.boundsCheck
  rw [if_neg (by simp [h1, h2])]

example := C68_default sampleInterp (type := .DOUBLE) (key := "x") (default := ⟨5, by decide⟩) (min := ⟨0, by decide⟩)
  (max := posInf) (properties := []) rfl (d := [("y", .str "7")]) rfl

/-- C68: a setting whose default or one of whose bounds is NaN cannot be constructed. -/
theorem C68_nan {type : SettingType} {key : String} {default min max : F64} {properties : List Property}
    (h : default.isNaN = true ∨ min.isNaN = true ∨ max.isNaN = true) :
    FloatingSetting py type key default min max properties = .error .value := by
  unfold FloatingSetting FloatParser.boundsCheck FloatParser.new
  have : ¬ (min.le default = true ∧ default.le max = true) := by
    simp only [F64.le, Bool.and_eq_true, Bool.not_eq_true', not_and]
    rcases h with h | h | h <;> simp [h]
  simp only
  rw [if_pos this]
  rfl

example := C68_nan sampleInterp (type := .FLOAT) (key := "x") (default := ⟨0x7FF8000000000000, by decide⟩) (min := negInf)
  (max := posInf) (properties := []) (.inl (by decide))

/-- The order on bit patterns is the order of the values: -inf < -1.0 < -0.0 = 0.0 < the smallest
positive number < 0.1 < 1.0 < inf. -/
example : [negInf, ⟨0xBFF0000000000000, by decide⟩, ⟨2 ^ 63, by decide⟩, ⟨0, by decide⟩, ⟨1, by decide⟩,
    ⟨0x3FB999999999999A, by decide⟩, ⟨0x3FF0000000000000, by decide⟩, posInf].Pairwise (fun a b => a.key ≤ b.key) := by
  decide

/-! ## C69: types -/

/-- C69 is violated by long settings, which report the type INTEGER, and by byte-size settings, which
report TIME_VALUE. -/
theorem C69_violated (key : String) (properties : List Property) :
    (∀ default min max st, LongSetting py key default min max properties = .ok st → st.type = .INTEGER) ∧
    (∀ default min max st, ByteSizeValueSetting py key default min max properties = .ok st → st.type = .TIME_VALUE) := by
  constructor
  · intro default min max st h; rw [((longSetting_iff py ..).1 h).1]; rfl
  · intro default min max st h; rw [((sizeSetting_iff py ..).1 h).1]; rfl

/-- C69, the part that holds: the other classes report their own type. -/
theorem C69_partial (key : String) (properties : List Property) :
    (∀ default min max st, IntegerSetting py key default min max properties = .ok st → st.type = .INTEGER) ∧
    (∀ default min max st, TimeValueSetting py key default min max properties = .ok st → st.type = .TIME_VALUE) ∧
    (∀ default validator st, StringSetting key default validator properties = .ok st → st.type = .STRING) ∧
    (∀ default min max st, FloatSetting py key default min max properties = .ok st → st.type = .FLOAT) ∧
    (∀ default min max st, DoubleSetting py key default min max properties = .ok st → st.type = .DOUBLE) ∧
    (∀ default, (BooleanSetting key default properties).type = .BOOLEAN) ∧
    (∀ default, (VersionSetting py key default properties).type = .VERSION) := by
  refine ⟨?_, ?_, ?_, ?_, ?_, fun _ => rfl, fun _ => rfl⟩
  · intro default min max st h; rw [((integerSetting_iff py ..).1 h).1]; rfl
  · intro default min max st h; rw [((timeSetting_iff py ..).1 h).1]; rfl
  · intro default validator st h; rw [(stringSetting_ok h).1]
  · intro default min max st h; rw [(floatingSetting_ok py h).1]
  · intro default min max st h; rw [(floatingSetting_ok py h).1]

/-! ## Cases that meet the hypotheses -/

/-- Settings of every class, read from one dict. -/
example :
    let d : Dict String PyVal := [("n", .str "7"), ("z", .int 0), ("t", .str "2h"), ("b", .str "TRUE"), ("s", .str "10kb")]
    ((IntegerSetting sampleInterp "n" 5 0 9).bind (·.get sampleInterp d)) = .ok 7 ∧
    ((IntegerSetting sampleInterp "n" 5 0 6).bind (·.get sampleInterp d)) = .error .value ∧
    ((IntegerSetting sampleInterp "z" 5 0 9).bind (·.get sampleInterp d)) = .ok 5 ∧
    ((LongSetting sampleInterp "absent" 5).bind (·.get sampleInterp d)) = .ok 5 ∧
    ((TimeValueSetting sampleInterp "t" ⟨1, .DAYS⟩ ⟨1, .HOURS⟩ ⟨3, .DAYS⟩).bind (·.get sampleInterp d)) = .ok ⟨2, .HOURS⟩ ∧
    ((TimeValueSetting sampleInterp "absent" TimeParser.MINUS_ONE).bind (·.get sampleInterp d)) = .error .value ∧
    ((ByteSizeValueSetting sampleInterp "s" ⟨1, .KB⟩ ⟨1, .BYTES⟩).bind (·.get sampleInterp d)) = .ok ⟨10, .KB⟩ ∧
    ((BooleanSetting "b" false).get sampleInterp d) = .ok true ∧
    ((DoubleSetting sampleInterp "absent" ⟨0x3FB999999999999A, by decide⟩).bind (·.get sampleInterp d)) =
      .ok ⟨0x3FB999999999999A, by decide⟩ := by
  decide +kernel

end Verif
