import Verif.Props.Defaults
/-!
# C86: settings without explicit bounds
-/

namespace Verif
open Py StreamInput StreamOutput Spec

variable (py : Interp)

theorem nan_or_bounded (x : F64) (h : x.isNaN = false) : negInf.le x = true ∧ x.le posInf = true := by
  have hm : x.mag ≤ 2047 * 2 ^ 52 := by
    unfold F64.isNaN at h
    simpa using h
  have k1 : negInf.key = -(2047 * 2 ^ 52) := by decide
  have k2 : posInf.key = 2047 * 2 ^ 52 := by decide
  have n1 : negInf.isNaN = false := by decide
  have n2 : posInf.isNaN = false := by decide
  have hk : -(2047 * 2 ^ 52) ≤ x.key ∧ x.key ≤ 2047 * 2 ^ 52 := by
    unfold F64.key
    split <;> omega
  unfold F64.le
  rw [h, n1, n2, k1, k2]
  simpa using hk

/-- C86, construction: without bounds the constructors accept every 32-bit (64-bit) integer, every float but NaN, every
duration and every size as default, and nothing else. -/
theorem C86_constructs (key : String) (properties : List Property) :
    (∀ default, (∃ st, IntegerSetting py key default (properties := properties) = .ok st) ↔
      -(2 ^ 31) ≤ default ∧ default < 2 ^ 31) ∧
    (∀ default, (∃ st, LongSetting py key default (properties := properties) = .ok st) ↔
      -(2 ^ 63) ≤ default ∧ default < 2 ^ 63) ∧
    (∀ default, (∃ st, FloatSetting py key default (properties := properties) = .ok st) ↔ default.isNaN = false) ∧
    (∀ default, (∃ st, DoubleSetting py key default (properties := properties) = .ok st) ↔ default.isNaN = false) ∧
    (∀ default, ∃ st, TimeValueSetting py key default (properties := properties) = .ok st) ∧
    (∀ default, ∃ st, ByteSizeValueSetting py key default (properties := properties) = .ok st) := by
  have hf : ∀ (type : SettingType) (default : F64),
      (∃ st, FloatingSetting py type key default (properties := properties) = .ok st) ↔ default.isNaN = false := by
    intro type default
    constructor
    · rintro ⟨st, h⟩
      by_contra hn
      rw [C68_nan py (.inl (by simpa using hn))] at h
      cases h
    · intro hn
      have := nan_or_bounded default hn
      refine ⟨⟨type, key, fun _ => .ok (py.float.str default), ⟨negInf, posInf, key, false⟩, none, [.tuple properties]⟩, ?_⟩
      unfold FloatingSetting FloatParser.boundsCheck FloatParser.new
      simp only [this, and_self, not_true, if_false]
      rfl
  refine ⟨fun default => ?_, fun default => ?_, hf _, hf _, fun default => ?_, fun default => ?_⟩
  · rw [(C54_constructs py key default _ _ properties).1]; omega
  · rw [(C54_constructs py key default _ _ properties).2]; omega
  · exact ((C55_constructs py key properties).1 _ _ _).2 ⟨by decide, by decide, .inl rfl, .inl rfl⟩
  · exact ((C55_constructs py key properties).2 _ _ _).2 ⟨by decide, by decide, .inl rfl, .inl rfl⟩

theorem natOfChars_toDigits_not {n : Nat} (h : ¬ allowed py.u (Nat.toDigits 10 n).length = true) :
    natOfChars py.u (Nat.toDigits 10 n) = .error .value := by
  obtain ⟨ds, e1, e2⟩ := intDigits_digits py.u (Nat.toDigits 10 n) Nat.toDigits_ne_nil
    fun c hc => by rw [py.u.digit_ascii c (toDigits_isDigit n c hc)]; rfl
  have hl : ds.length = (Nat.toDigits 10 n).length := by
    have := congrArg List.length e2
    simpa using this.symm
  unfold natOfChars
  rw [e1]
  simp only
  rw [hl, if_neg h]

/-- Reading a decimal numeral gives its number, or raises ValueError because it has too many digits. -/
theorem intOfStr_numeral (i : Int) :
    intOfStr py.u (toString i) = .ok i ∨ intOfStr py.u (toString i) = .error .value := by
  by_cases ha : allowed py.u (Nat.toDigits 10 i.natAbs).length = true
  · exact .inl (intOfStr_strInt py.u (by unfold strInt; rw [if_pos ha]))
  · right
    cases i with
    | ofNat n =>
      have hl : (toString (Int.ofNat n)).toList = Nat.toDigits 10 n := toString_nat_toList n
      rw [intOfStr_digits py.u (by rw [hl]; exact Nat.toDigits_ne_nil)]
      · rw [hl, natOfChars_toDigits_not py (by simpa using ha)]; rfl
      · intro c hc
        rw [hl] at hc
        rw [py.u.digit_ascii c (toDigits_isDigit n c hc)]; rfl
    | negSucc n =>
      have hl : (toString (Int.negSucc n)).toList = '-' :: Nat.toDigits 10 (n + 1) := by
        rw [toString_int_neg, String.toList_append, toString_nat_toList]; rfl
      unfold intOfStr
      rw [intStrip_id py.u]
      · rw [hl]
        simp only
        rw [natOfChars_toDigits_not py (by simpa using ha)]
        rfl
      · intro c hc
        rw [hl] at hc
        rcases List.mem_cons.1 hc with rfl | hc
        · exact py.u.minus.2.1
        · exact digit_space py.u (by rw [py.u.digit_ascii c (toDigits_isDigit _ c hc)]; rfl)

theorem numeral_ne_empty (n : Int) : toString n ≠ "" := by
  cases n with
  | ofNat m =>
    intro e
    have := congrArg String.toList e
    rw [show toString (Int.ofNat m) = toString m from rfl, toString_nat_toList] at this
    exact Nat.toDigits_ne_nil this
  | negSucc m =>
    intro e
    have := congrArg String.toList e
    rw [toString_int_neg, String.toList_append] at this
    simp at this

theorem intSetting_outside {key : String} {default min max n : Int} {properties : List Property} {d : Dict String PyVal}
    (h : d.get? key = some (.str (toString n))) (hn : ¬ (min ≤ n ∧ n ≤ max)) :
    (intSettingOf py key default min max properties).get py d = .error .value := by
  rw [C53_text_partial py _ d _ h (numeral_ne_empty n)]
  change (intOfStr py.u (toString n) >>= fun v => IntParser.boundsCheck ⟨min, max, key, false⟩ v) = _
  rcases intOfStr_numeral py n with e | e
  · rw [e, Except.ok_bind]
    unfold IntParser.boundsCheck
    rw [if_pos hn]
  · rw [e]; rfl

/-- C86, reading: an integer stored as text is given back if it is a 32-bit (64-bit) integer and raises ValueError
otherwise. -/
theorem C86_integers (key : String) (default n : Int) (properties : List Property) (d : Dict String PyVal)
    (h : d.get? key = some (.str (toString n))) :
    (∀ st, IntegerSetting py key default (properties := properties) = .ok st →
      (-(2 ^ 31) ≤ n ∧ n < 2 ^ 31 → st.get py d = .ok n) ∧
      (¬ (-(2 ^ 31) ≤ n ∧ n < 2 ^ 31) → st.get py d = .error .value)) ∧
    (∀ st, LongSetting py key default (properties := properties) = .ok st →
      (-(2 ^ 63) ≤ n ∧ n < 2 ^ 63 → st.get py d = .ok n) ∧
      (¬ (-(2 ^ 63) ≤ n ∧ n < 2 ^ 63) → st.get py d = .error .value)) := by
  constructor
  · intro st hc
    refine ⟨fun hn => C54_stored py (.inl hc) hn.1 (by omega) (.inl h), fun hn => ?_⟩
    obtain ⟨rfl, -⟩ := (integerSetting_iff py ..).1 hc
    exact intSetting_outside py h (by omega)
  · intro st hc
    refine ⟨fun hn => C54_stored py (.inr hc) hn.1 (by omega) (.inl h), fun hn => ?_⟩
    obtain ⟨rfl, -⟩ := (longSetting_iff py ..).1 hc
    exact intSetting_outside py h (by omega)

example := C86_integers sampleInterp "n" 5 (2 ^ 31) [] [("n", .str "2147483648")] rfl

/-- C86, reading: every text that Python parses as a float other than NaN is given back as that float. -/
theorem C86_floats (key : String) (default x : F64) (properties : List Property) (d : Dict String PyVal) (s : String)
    (h : d.get? key = some (.str s)) (hs : s ≠ "") (hp : py.float.parse s = .ok x) (hx : x.isNaN = false)
    (st : Setting FloatParser) (hc : FloatSetting py key default (properties := properties) = .ok st ∨
      DoubleSetting py key default (properties := properties) = .ok st) :
    st.get py d = .ok x := by
  have key' : ∃ type, FloatingSetting py type key default (properties := properties) = .ok st := by
    rcases hc with hc | hc
    · exact ⟨_, hc⟩
    · exact ⟨_, hc⟩
  obtain ⟨type, hc⟩ := key'
  obtain ⟨rfl, -, -⟩ := floatingSetting_ok py hc
  rw [C53_text_partial py _ d s h hs]
  change (py.float.parse s >>= fun v => FloatParser.boundsCheck ⟨negInf, posInf, key, false⟩ v) = _
  rw [hp, Except.ok_bind]
  unfold FloatParser.boundsCheck
  simp [nan_or_bounded x hx]

example := C86_floats sampleInterp "n" ⟨5, by decide⟩ ⟨7, by decide⟩ [] [("n", .str "7")] "7" rfl (by decide)
  (by decide +kernel) (by decide)

/-- C86, reading: every text that is a duration (a size) is given back as that. -/
theorem C86_units (key : String) (properties : List Property) (d : Dict String PyVal) (s : String)
    (h : d.get? key = some (.str s)) (hs : s ≠ "") :
    (∀ default v st, TimeValueSetting py key default (properties := properties) = .ok st →
      TimeValue.parse py.u s = .ok v → st.get py d = .ok v) ∧
    (∀ default v st, ByteSizeValueSetting py key default (properties := properties) = .ok st →
      ByteSizeValue.parse py.u s = .ok v → st.get py d = .ok v) := by
  constructor
  · intro default v st hc hp
    obtain ⟨rfl, h1, h2, -⟩ := (timeSetting_iff py ..).1 hc
    rw [C53_text_partial py _ d s h hs]
    change (TimeValue.parse py.u s >>= fun v => TimeParser.boundsCheck ⟨_, _, key, false⟩ v) = _
    rw [hp, Except.ok_bind]
    exact (time_boundsCheck_iff h1 h2 v v).2 ⟨rfl, .inl rfl, .inl rfl⟩
  · intro default v st hc hp
    obtain ⟨rfl, h1, h2, -⟩ := (sizeSetting_iff py ..).1 hc
    rw [C53_text_partial py _ d s h hs]
    change (ByteSizeValue.parse py.u s >>= fun v => SizeParser.boundsCheck ⟨_, _, key⟩ v) = _
    rw [hp, Except.ok_bind]
    exact (size_boundsCheck_iff h1 h2 v v).2 ⟨rfl, .inl rfl, .inl rfl⟩

example := C86_units sampleInterp "t" [] [("t", .str "2h")] "2h" rfl (by decide)

/-- C86: settings without bounds, read. -/
example :
    let d : Dict String PyVal := [("n", .str "2147483647"), ("m", .str "-9223372036854775808"), ("t", .str "2h")]
    ((IntegerSetting sampleInterp "n" 5).bind (·.get sampleInterp d)) = .ok (2 ^ 31 - 1) ∧
    ((LongSetting sampleInterp "m" 5).bind (·.get sampleInterp d)) = .ok (-(2 ^ 63)) ∧
    ((TimeValueSetting sampleInterp "t" ⟨1, .DAYS⟩).bind (·.get sampleInterp d)) = .ok ⟨2, .HOURS⟩ := by
  decide +kernel

/-- C86: too large for an integer setting. -/
example : ((IntegerSetting sampleInterp "n" 5).bind (·.get sampleInterp [("n", .str "2147483648")])) = .error .value := by
  decide +kernel

end Verif
