import Verif.Props.Unbounded
/-!
# C88: configured boolean, version and text settings
-/

namespace Verif
open Py Spec

variable (py : Interp)

/-- C88, boolean: a text with only ASCII characters is true exactly if it is `true` in any casing. -/
theorem C88_boolean_text (key : String) (default : Bool) (properties : List Property) (d : Dict String PyVal) (s : String)
    (h : d.get? key = some (.str s)) (hne : s ≠ "") (ha : ∀ c ∈ s.toList, c.val < 128) :
    (BooleanSetting key default properties).get py d = .ok (decide (s.toList.map Char.toLower = ['t', 'r', 'u', 'e'])) := by
  rw [C53_text_partial py _ d s h hne]
  change Except.ok (py.u.lower s == "true") = _
  rw [py.u.lower_ascii s ha]
  congr 1
  rw [Bool.eq_iff_iff, beq_iff_eq, decide_eq_true_eq, ← String.toList_inj, String.toList_ofList]
  rfl

example := C88_boolean_text sampleInterp "a" false [] [("a", .str "tRue")] "tRue" rfl (by decide) (by decide)

/-- C88, boolean: True is true; numbers other than 0 are not. -/
theorem C88_boolean_value (key : String) (default : Bool) (properties : List Property) (d : Dict String PyVal) :
    (d.get? key = some (.bool true) → (BooleanSetting key default properties).get py d = .ok true) ∧
    (∀ i : Int, d.get? key = some (.int i) → i ≠ 0 → i.natAbs < 10 ^ 640 →
      (BooleanSetting key default properties).get py d = .ok false) := by
  constructor
  · intro h
    rw [C53_present_partial py _ d _ "True" h rfl rfl (by decide)]
    change Except.ok (py.u.lower "True" == "true") = _
    rw [py.u.lower_ascii "True" (by decide)]
    rfl
  · intro i h h0 hi
    rw [C53_present_partial py _ d (.int i) (toString i) h (by simpa [PyVal.truthy] using h0) (strInt_ok py.u hi)
      (numeral_ne_empty i)]
    change Except.ok (py.u.lower (toString i) == "true") = _
    have hd : ∀ c ∈ (toString i).toList, c.isDigit = true ∨ c = '-' := by
      intro c hc
      cases i with
      | ofNat n =>
        have hl : (toString (Int.ofNat n)).toList = Nat.toDigits 10 n := toString_nat_toList n
        rw [hl] at hc
        exact .inl (toDigits_isDigit n c hc)
      | negSucc n =>
        have hl : (toString (Int.negSucc n)).toList = '-' :: Nat.toDigits 10 (n + 1) := by
          rw [toString_int_neg, String.toList_append, toString_nat_toList]; rfl
        rw [hl] at hc
        rcases List.mem_cons.1 hc with rfl | hc
        · exact .inr rfl
        · exact .inl (toDigits_isDigit _ c hc)
    have hlt : ∀ c : Char, c.isDigit = true ∨ c = '-' → c.val < 128 ∧ c.toLower ≠ 't' := by
      rintro c (hc | rfl)
      · have h2 : c.val ≤ 57 ∧ 48 ≤ c.val := by
          unfold Char.isDigit at hc
          simp at hc
          exact ⟨hc.2, hc.1⟩
        refine ⟨UInt32.lt_of_le_of_lt h2.1 (show (57 : UInt32) < 128 by decide), ?_⟩
        have : c.toLower = c := by
          unfold Char.toLower
          rw [dif_neg]
          intro hu
          exact absurd (UInt32.le_trans hu.1 h2.1) (by decide)
        rw [this]
        rintro rfl
        exact absurd h2.1 (by decide)
      · decide
    rw [py.u.lower_ascii _ (fun c hc => (hlt c (hd c hc)).1)]
    congr 1
    rw [beq_eq_false_iff_ne]
    intro e
    have e := congrArg String.toList e
    rw [String.toList_ofList] at e
    cases hl : (toString i).toList with
    | nil => rw [hl] at e; exact absurd e (by decide)
    | cons c cs =>
      rw [hl] at e
      have : c.toLower = 't' := by
        have := congrArg List.head? e
        simpa using this
      exact (hlt c (hd c (by rw [hl]; simp))).2 this

/-- C88, boolean: a stored False reads as the default. -/
theorem C88_boolean_false (key : String) (default : Bool) (properties : List Property) (d : Dict String PyVal)
    (h : d.get? key = some (.bool false)) : (BooleanSetting key default properties).get py d = .ok default := by
  rw [C53_violated py _ d [] (.bool false) h (.inr (.inl rfl)) rfl rfl]
  exact C67_boolean py key default properties [] rfl

example := C88_boolean_false sampleInterp "a" true [] [("a", .bool false)] rfl

/-- C88, version: a stored id gives the version with that id, a text that is not a number raises ValueError. -/
theorem C88_version (key : String) (default : Version) (properties : List Property) (d : Dict String PyVal) :
    (∀ v : Version, v.id ≠ 0 → v.id.natAbs < 10 ^ 640 →
      d.get? key = some (.str (toString v.id)) ∨ d.get? key = some (.int v.id) →
      (VersionSetting py key default properties).get py d = .ok v) ∧
    (∀ s e, d.get? key = some (.str s) → s ≠ "" → intOfStr py.u s = .error e →
      (VersionSetting py key default properties).get py d = .error e) := by
  constructor
  · intro v h0 hv h
    have hs := strInt_ok py.u hv
    have e : (VersionSetting py key default properties).get py d =
        SettingParser.parse py (VersionSetting py key default properties).parser (toString v.id) := by
      rcases h with h | h
      · rw [C53_text_partial py _ d _ h (numeral_ne_empty v.id)]; rfl
      · rw [C53_present_partial py _ d (.int v.id) _ h (by simpa [PyVal.truthy] using h0) hs (numeral_ne_empty v.id)]; rfl
    rw [e]
    change ((intOfStr py.u (toString v.id)).map fun n => Version.new (Int.xor n Version.MASK)) = _
    rw [intOfStr_strInt py.u hs]
    change Except.ok (Version.new (Int.xor v.id Version.MASK)) = _
    rw [version_new_xor]
  · intro s e h hne he
    rw [C53_text_partial py _ d s h hne]
    change ((intOfStr py.u s).map fun n => Version.new (Int.xor n Version.MASK)) = _
    rw [he]; rfl

/-- C88, text: a stored text is given back unchanged if the validator accepts it (or there is none); otherwise the
validator's error is raised. -/
theorem C88_string {key default : String} {validator : Option (String → Except Err Unit)} {properties : List Property}
    {st : Setting TextParser} (hc : StringSetting key default validator properties = .ok st) {d : Dict String PyVal}
    {s : String} (h : d.get? key = some (.str s)) (hne : s ≠ "") :
    (validator = none → st.get py d = .ok s) ∧
    (∀ f, validator = some f → f s = .ok () → st.get py d = .ok s) ∧
    (∀ f e, validator = some f → f s = .error e → st.get py d = .error e) := by
  obtain ⟨rfl, -⟩ := stringSetting_ok hc
  rw [C53_text_partial py _ d s h hne]
  refine ⟨?_, ?_, ?_⟩
  · rintro rfl; rfl
  · rintro f rfl e
    change (f s >>= fun _ => _) = _
    rw [e]; rfl
  · rintro f e rfl he
    change (f s >>= fun _ => _) = _
    rw [he]; rfl

example := C88_string sampleInterp (key := "k") (default := "ab")
  (validator := some fun s => if s.length = 2 then .ok () else .error .value) (properties := []) rfl
  (d := [("k", .str "cd")]) (s := "cd") rfl (by decide)

/-- C88: configured settings, read. -/
example :
    let d : Dict String PyVal := [("a", .str "tRue"), ("b", .bool true), ("c", .str "yes"), ("v", .int 136227827),
      ("s", .str "x y")]
    ((BooleanSetting "a" false).get sampleInterp d) = .ok true ∧
    ((BooleanSetting "b" false).get sampleInterp d) = .ok true ∧
    ((BooleanSetting "c" true).get sampleInterp d) = .ok false ∧
    ((VersionSetting sampleInterp "v" ⟨1⟩).get sampleInterp d) = .ok ⟨136227827⟩ ∧
    ((StringSetting "s" "").bind (·.get sampleInterp d)) = .ok "x y" := by
  decide +kernel

end Verif
