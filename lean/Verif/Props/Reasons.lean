import Verif.Spec.Reasons
import Verif.Lemmas.Text
import Verif.Lemmas.Interp
/-!
# The messages of rejected settings (C115)
-/

namespace Verif
open Py

/-- C115: integers. -/
theorem C115_integer_partial (u : Unicode) (p : IntParser) (v : Int) :
    (p.reason u v = none ↔ p.boundsCheck v = .ok v) ∧
    (∀ text, p.reason u v = some (.ok text) → GoodReason (· ≤ ·) toString p.key (fun w => p.boundsCheck w = .ok w) v text) ∧
    (p.min_value.natAbs < 10 ^ 640 → p.max_value.natAbs < 10 ^ 640 → p.reason u v ≠ none → ∃ text, p.reason u v = some (.ok text)) := by
  have hacc : ∀ w, p.boundsCheck w = .ok w ↔ p.min_value ≤ w ∧ w ≤ p.max_value := by
    intro w; unfold IntParser.boundsCheck
    by_cases h : p.min_value ≤ w ∧ w ≤ p.max_value
    · rw [if_neg (not_not.2 h)]; exact ⟨fun _ => h, fun _ => rfl⟩
    · rw [if_pos h]; exact ⟨fun x => (by cases x), fun x => absurd x h⟩
  unfold IntParser.reason
  by_cases h : p.min_value ≤ v ∧ v ≤ p.max_value
  · rw [if_neg (not_not.2 h)]
    exact ⟨⟨fun _ => (hacc v).2 h, fun _ => rfl⟩, fun _ x => (by cases x), fun _ _ x => absurd rfl x⟩
  · rw [if_pos h]
    refine ⟨⟨fun x => (by cases x), fun x => absurd ((hacc v).1 x) h⟩, fun text ht => ?_, fun h1 h2 _ => ?_⟩
    · refine ⟨.between p.min_value p.max_value, ?_, h, fun w hw => (hacc w).1 hw⟩
      cases ha : strInt u p.min_value with
      | error e => rw [ha] at ht; cases ht
      | ok a =>
        cases hb : strInt u p.max_value with
        | error e => rw [ha, hb] at ht; cases ht
        | ok b =>
          rw [ha, hb] at ht
          injection ht with ht; injection ht with ht
          rw [← ht, strInt_eq u ha, strInt_eq u hb]; rfl
    · rw [strInt_ok u h1, strInt_ok u h2]; exact ⟨_, rfl⟩

/-- C115: floats; with a NaN among bounds or value nothing is accepted. -/
theorem C115_float_partial (py : Interp) (p : FloatParser) (v : F64) :
    (p.reason py v = none ↔ p.boundsCheck v = .ok v) ∧
    ∀ r, p.reason py v = some r → ∃ text, r = .ok text ∧
      GoodReason (fun a b => a.le b = true) py.float.str p.key (fun w => p.boundsCheck w = .ok w) v text := by
  have hacc : ∀ w, p.boundsCheck w = .ok w ↔ p.min_value.le w ∧ w.le p.max_value := by
    intro w; unfold FloatParser.boundsCheck
    by_cases h : p.min_value.le w ∧ w.le p.max_value
    · rw [if_neg (not_not.2 h)]; exact ⟨fun _ => h, fun _ => rfl⟩
    · rw [if_pos h]; exact ⟨fun x => (by cases x), fun x => absurd x h⟩
  unfold FloatParser.reason
  by_cases h : p.min_value.le v ∧ v.le p.max_value
  · rw [if_neg (not_not.2 h)]
    exact ⟨⟨fun _ => (hacc v).2 h, fun _ => rfl⟩, fun _ x => (by cases x)⟩
  · rw [if_pos h]
    refine ⟨⟨fun x => (by cases x), fun x => absurd ((hacc v).1 x) h⟩, fun r hr => ?_⟩
    injection hr with hr
    exact ⟨_, hr.symm, .between p.min_value p.max_value, rfl, h, fun w hw => (hacc w).1 hw⟩

theorem time_str (u : Unicode) {t : TimeValue} {s : String} (h : t.str u = .ok s) : s = timeText t := by
  obtain ⟨n, unit⟩ := t
  unfold TimeValue.str at h
  unfold timeText
  cases hs : strInt u n with
  | error e => cases unit <;> (rw [hs] at h; exact absurd h (by simp [reverseLookup, TIME_UNIT_MAPPING, Except.map]))
  | ok x =>
    rw [hs] at h
    have := strInt_eq u hs
    cases unit <;> (simp [reverseLookup, TIME_UNIT_MAPPING, Except.map] at h; rw [← h, this])

theorem size_str (u : Unicode) {t : ByteSizeValue} {s : String} (h : t.str u = .ok s) : s = sizeText t := by
  obtain ⟨n, unit⟩ := t
  unfold ByteSizeValue.str at h
  unfold sizeText
  cases hs : strInt u n with
  | error e => cases unit <;> (rw [hs] at h; exact absurd h (by simp [reverseLookup, BYTE_SIZE_UNIT_MAPPING, Except.map]))
  | ok x =>
    rw [hs] at h
    have := strInt_eq u hs
    cases unit <;> (simp [reverseLookup, BYTE_SIZE_UNIT_MAPPING, Except.map] at h; rw [← h, this])

/-- C115: time values, compared by their length. -/
theorem C115_time_partial (u : Unicode) (p : TimeParser) (v : TimeValue) :
    (p.reason u v = none ↔ p.boundsCheck v = .ok v) ∧
    ∀ text, p.reason u v = some (.ok text) →
      GoodReason (fun a b => a.toNanos ≤ b.toNanos) timeText p.key (fun w => p.boundsCheck w = .ok w) v text := by
  have hacc : ∀ w, p.boundsCheck w = .ok w → ¬ (0 ≤ p.min_value.duration ∧ p.min_value.toNanos > w.toNanos) ∧
      ¬ (0 ≤ p.max_value.duration ∧ p.max_value.toNanos < w.toNanos) := by
    intro w hw; unfold TimeParser.boundsCheck at hw
    by_cases h : 0 ≤ p.min_value.duration ∧ p.min_value.toNanos > w.toNanos
    · rw [if_pos h] at hw; cases hw
    · rw [if_neg h] at hw
      by_cases h' : 0 ≤ p.max_value.duration ∧ p.max_value.toNanos < w.toNanos
      · rw [if_pos h'] at hw; cases hw
      · exact ⟨h, h'⟩
  unfold TimeParser.reason
  by_cases h : 0 ≤ p.min_value.duration ∧ p.min_value.toNanos > v.toNanos
  · rw [if_pos h]
    refine ⟨⟨fun x => (by cases x), fun x => absurd h (hacc v x).1⟩, fun text ht => ?_⟩
    refine ⟨.above p.min_value, ?_, (show ¬ p.min_value.toNanos ≤ v.toNanos from Int.not_le.2 h.2), fun w hw => (show p.min_value.toNanos ≤ w.toNanos from Int.not_lt.1 fun hlt => (hacc w hw).1 ⟨h.1, hlt⟩)⟩
    cases hs : p.min_value.str u with
    | error e => rw [hs] at ht; cases ht
    | ok s => rw [hs] at ht; injection ht with ht; injection ht with ht; rw [← ht, time_str u hs]; rfl
  · rw [if_neg h]
    by_cases h' : 0 ≤ p.max_value.duration ∧ p.max_value.toNanos < v.toNanos
    · rw [if_pos h']
      refine ⟨⟨fun x => (by cases x), fun x => absurd h' (hacc v x).2⟩, fun text ht => ?_⟩
      refine ⟨.below p.max_value, ?_, (show ¬ v.toNanos ≤ p.max_value.toNanos from Int.not_le.2 h'.2), fun w hw => (show w.toNanos ≤ p.max_value.toNanos from Int.not_lt.1 fun hlt => (hacc w hw).2 ⟨h'.1, hlt⟩)⟩
      cases hs : p.max_value.str u with
      | error e => rw [hs] at ht; cases ht
      | ok s => rw [hs] at ht; injection ht with ht; injection ht with ht; rw [← ht, time_str u hs]; rfl
    · rw [if_neg h']
      refine ⟨⟨fun _ => ?_, fun _ => rfl⟩, fun _ x => (by cases x)⟩
      unfold TimeParser.boundsCheck; rw [if_neg h, if_neg h']

/-- C115: sizes, compared by their number of bytes. -/
theorem C115_size_partial (u : Unicode) (p : SizeParser) (v : ByteSizeValue) :
    (p.reason u v = none ↔ p.boundsCheck v = .ok v) ∧
    ∀ text, p.reason u v = some (.ok text) →
      GoodReason (fun a b => a.toBytes ≤ b.toBytes) sizeText p.key (fun w => p.boundsCheck w = .ok w) v text := by
  have hacc : ∀ w, p.boundsCheck w = .ok w → ¬ (0 ≤ p.min_value.size ∧ p.min_value.toBytes > w.toBytes) ∧
      ¬ (0 ≤ p.max_value.size ∧ p.max_value.toBytes < w.toBytes) := by
    intro w hw; unfold SizeParser.boundsCheck at hw
    by_cases h : 0 ≤ p.min_value.size ∧ p.min_value.toBytes > w.toBytes
    · rw [if_pos h] at hw; cases hw
    · rw [if_neg h] at hw
      by_cases h' : 0 ≤ p.max_value.size ∧ p.max_value.toBytes < w.toBytes
      · rw [if_pos h'] at hw; cases hw
      · exact ⟨h, h'⟩
  unfold SizeParser.reason
  by_cases h : 0 ≤ p.min_value.size ∧ p.min_value.toBytes > v.toBytes
  · rw [if_pos h]
    refine ⟨⟨fun x => (by cases x), fun x => absurd h (hacc v x).1⟩, fun text ht => ?_⟩
    refine ⟨.above p.min_value, ?_, (show ¬ p.min_value.toBytes ≤ v.toBytes from Int.not_le.2 h.2), fun w hw => (show p.min_value.toBytes ≤ w.toBytes from Int.not_lt.1 fun hlt => (hacc w hw).1 ⟨h.1, hlt⟩)⟩
    cases hs : p.min_value.str u with
    | error e => rw [hs] at ht; cases ht
    | ok s => rw [hs] at ht; injection ht with ht; injection ht with ht; rw [← ht, size_str u hs]; rfl
  · rw [if_neg h]
    by_cases h' : 0 ≤ p.max_value.size ∧ p.max_value.toBytes < v.toBytes
    · rw [if_pos h']
      refine ⟨⟨fun x => (by cases x), fun x => absurd h' (hacc v x).2⟩, fun text ht => ?_⟩
      refine ⟨.below p.max_value, ?_, (show ¬ v.toBytes ≤ p.max_value.toBytes from Int.not_le.2 h'.2), fun w hw => (show w.toBytes ≤ p.max_value.toBytes from Int.not_lt.1 fun hlt => (hacc w hw).2 ⟨h'.1, hlt⟩)⟩
      cases hs : p.max_value.str u with
      | error e => rw [hs] at ht; cases ht
      | ok s => rw [hs] at ht; injection ht with ht; injection ht with ht; rw [← ht, size_str u hs]; rfl
    · rw [if_neg h']
      refine ⟨⟨fun _ => ?_, fun _ => rfl⟩, fun _ x => (by cases x)⟩
      unfold SizeParser.boundsCheck; rw [if_neg h, if_neg h']

/-- C115: the validator that wants a match says that there is none, exactly when there is none. -/
theorem C115_regex_partial (reMatch : String → String → Except Err Bool) (regex value : String) (m : Bool)
    (h : reMatch regex value = .ok m) :
    (m = true → RegexValidator.reason reMatch ⟨regex, true⟩ value = none ∧
      RegexValidator.validate reMatch ⟨regex, true⟩ value = .ok ()) ∧
    (m = false → RegexValidator.reason reMatch ⟨regex, true⟩ value =
        some ("Setting [" ++ value ++ "] does not match regex [" ++ regex ++ "]") ∧
      RegexValidator.validate reMatch ⟨regex, true⟩ value = .error .value) := by
  refine ⟨?_, ?_⟩ <;>
  · rintro rfl
    simp [RegexValidator.reason, RegexValidator.validate, h, bind, Except.bind, throw, throwThe, MonadExceptOf.throw, pure, Except.pure]

/-- C115: the validator that wants no match rejects exactly the values that match, with the message that they must match; a value
that does is never accepted. -/
theorem C115_regex_violated (reMatch : String → String → Except Err Bool) (regex value : String) (h : reMatch regex value = .ok true) :
    RegexValidator.reason reMatch ⟨regex, false⟩ value = some ("Setting [" ++ value ++ "] must match regex [" ++ regex ++ "]") ∧
    RegexValidator.validate reMatch ⟨regex, false⟩ value = .error .value ∧
    ∀ w, RegexValidator.validate reMatch ⟨regex, false⟩ w = .ok () → reMatch regex w = .ok false := by
  refine ⟨by simp [RegexValidator.reason, h], ?_, ?_⟩
  · simp [RegexValidator.validate, h, bind, Except.bind, throw, throwThe, MonadExceptOf.throw]
  · intro w hw
    cases hm : reMatch regex w with
    | error e => simp [RegexValidator.validate, hm, bind, Except.bind] at hw
    | ok m =>
      cases m with
      | false => rfl
      | true => simp [RegexValidator.validate, hm, bind, Except.bind, throw, throwThe, MonadExceptOf.throw] at hw

theorem lookup_none {α : Type} {m : List (String × α)} {k : String} (h : k ∉ m.map (·.1)) : lookup m k = none := by
  unfold lookup
  rw [Option.map_eq_none_iff, List.find?_eq_none]
  intro e he hk
  exact h (List.mem_map.2 ⟨e, he, by simpa using hk⟩)

/-- C115: a time or size that is not a number followed by a unit is shown as it was written; a time whose unit is unknown is rejected
with that unit, and none of the messages goes with an accepted value. -/
theorem C115_notation_partial (u : Unicode) (value : String) :
    ((∃ text, TimeValue.parseReason u value = some text) → TimeValue.parse u value = .error .value) ∧
    ((∃ text, ByteSizeValue.parseReason u value = some text) → ByteSizeValue.parse u value = .error .value) ∧
    (matchValue u (u.lower value) = none → TimeValue.parseReason u value = some ("Invalid TimeValue: " ++ value) ∧
      ByteSizeValue.parseReason u value = some ("Invalid ByteSizeValue: " ++ value)) ∧
    ∀ digits unit n, matchValue u (u.lower value) = some (digits, unit) → intOfStr u digits = .ok n →
      unit ∉ ["nanos", "micros", "ms", "s", "m", "h", "d"] → TimeValue.parseReason u value = some ("Invalid TimeUnit: " ++ unit) := by
  refine ⟨fun ⟨text, h⟩ => ?_, fun ⟨text, h⟩ => ?_, fun h => ?_, fun digits unit n h hn hu => ?_⟩
  · unfold TimeValue.parseReason at h; unfold TimeValue.parse
    cases hm : matchValue u (u.lower value) with
    | none => rfl
    | some x =>
      obtain ⟨d, unit⟩ := x
      simp only [hm] at h ⊢
      cases hi : intOfStr u d with
      | error e => simp [hi] at h
      | ok n =>
        simp only [hi] at h ⊢
        cases hl : lookup TIME_UNIT_MAPPING unit with
        | none => rfl
        | some t => simp [hl] at h
  · unfold ByteSizeValue.parseReason at h; unfold ByteSizeValue.parse
    cases hm : matchValue u (u.lower value) with
    | none => rfl
    | some x =>
      obtain ⟨d, unit⟩ := x
      simp only [hm] at h ⊢
      cases hi : intOfStr u d with
      | error e => simp [hi] at h
      | ok n =>
        simp only [hi] at h ⊢
        cases hl : lookup BYTE_SIZE_UNIT_MAPPING (ByteSizeValue.withB unit) with
        | none => rfl
        | some t => simp [hl] at h
  · unfold TimeValue.parseReason ByteSizeValue.parseReason; rw [h]; exact ⟨rfl, rfl⟩
  · unfold TimeValue.parseReason; rw [h]; simp only [hn]
    have : lookup TIME_UNIT_MAPPING unit = none := by
      exact lookup_none hu
    rw [this]; rfl

/-- C115 is violated by sizes: a size whose unit is unknown and does not end in "b" is rejected as a time unit, and as one that was
not written. -/
theorem C115_unit_violated (u : Unicode) (value digits unit : String) (n : Int)
    (h : matchValue u (u.lower value) = some (digits, unit)) (hn : intOfStr u digits = .ok n)
    (hb : unit.toList.getLast? ≠ some 'b') (hu : unit ∉ ["", "k", "m", "g", "t", "p"]) :
    ByteSizeValue.parse u value = .error .value ∧
    ByteSizeValue.parseReason u value = some ("Invalid TimeUnit: " ++ unit ++ "b") := by
  have hw : ByteSizeValue.withB unit = unit ++ "b" := by unfold ByteSizeValue.withB; rw [if_neg hb]
  have hl : lookup BYTE_SIZE_UNIT_MAPPING (unit ++ "b") = none := by
    refine lookup_none fun hm => hu ?_
    have hinj : ∀ t : String, unit ++ "b" = t ++ "b" → unit = t := by
      intro t ht
      have := congrArg String.toList ht
      rw [String.toList_append, String.toList_append] at this
      exact String.ext (List.append_cancel_right this)
    simp only [BYTE_SIZE_UNIT_MAPPING, List.map_cons, List.map_nil, List.mem_cons, List.not_mem_nil, or_false] at hm ⊢
    rcases hm with hm | hm | hm | hm | hm | hm
    · exact .inl (hinj "" hm)
    · exact .inr (.inl (hinj "k" hm))
    · exact .inr (.inr (.inl (hinj "m" hm)))
    · exact .inr (.inr (.inr (.inl (hinj "g" hm))))
    · exact .inr (.inr (.inr (.inr (.inl (hinj "t" hm)))))
    · exact .inr (.inr (.inr (.inr (.inr (hinj "p" hm)))))
  unfold ByteSizeValue.parse ByteSizeValue.parseReason
  rw [h]; simp only [hn, hw, hl]
  exact ⟨trivial, by rw [if_neg (by decide), String.append_assoc]⟩

/-- C115: registering a handler raises exactly if there is a message, and the message names a route of the handler and the key
under which that route would be found, which is a key of the registry. -/
theorem C115_route {H : Type} (reg : Registry H) (h : H) (routes : List NamedRoute) :
    ((reg.register h routes).2 = none ↔ reg.registerReason h routes = none) ∧
    ∀ text, reg.registerReason h routes = some text → ∃ r ∈ routes, (reg.register h routes).1.routes.contains (wildcard r.key) = true ∧
      text = "Can not register " ++ r.key ++ ", " ++ wildcard r.key ++ " is already registered." := by
  unfold Registry.register
  induction routes generalizing reg with
  | nil => exact ⟨⟨fun _ => rfl, fun _ => rfl⟩, fun _ x => (by cases x)⟩
  | cons r rs ih =>
    unfold Registry.registerLoop Registry.registerReason
    simp only
    by_cases hc : reg.routes.contains (wildcard r.key) = true
    · rw [if_pos hc, if_pos hc]
      refine ⟨⟨fun x => (by cases x), fun x => (by cases x)⟩, fun text ht => ⟨r, List.mem_cons_self, hc, ?_⟩⟩
      injection ht with ht; exact ht.symm
    · rw [if_neg hc, if_neg hc]
      obtain ⟨i1, i2⟩ := ih ⟨reg.routes.set (wildcard r.key) h, reg.named_routes ++ [r.str]⟩
      refine ⟨i1, fun text ht => ?_⟩
      obtain ⟨r', hr', h1, h2⟩ := i2 text ht
      exact ⟨r', List.mem_cons_of_mem _ hr', h1, h2⟩

/-! Concrete cases. -/

example : (⟨[], []⟩ : Registry Nat).registerReason 0 [⟨.GET, "/a/{x}", "n"⟩, ⟨.GET, "/a/{y}", "m"⟩] =
    some "Can not register GET /a/{y}, GET /a/* is already registered." := by decide +kernel

example : TimeParser.reason asciiUnicode ⟨⟨5, .SECONDS⟩, ⟨1, .HOURS⟩, "index.wait", false⟩ ⟨4999, .MILLISECONDS⟩ =
    some (.ok "Value for setting [index.wait], must be above 5s") := by decide +kernel
example : IntParser.reason asciiUnicode ⟨1, 10, "shards", false⟩ 11 = some (.ok "Value for setting [shards], must be between 1 and 10") := by
  decide +kernel
example := C115_unit_violated asciiUnicode "7 Ex" "7" "ex" 7 (by decide +kernel) (by decide +kernel) (by decide +kernel) (by decide +kernel)
example := (C115_notation_partial asciiUnicode "9 weeks").2.2.2 "9" "weeks" 9 (by decide +kernel) (by decide +kernel) (by decide +kernel)
example := C115_regex_violated (fun r v => .ok (v.startsWith r)) "no" "nothing" (by decide +kernel)

example := C115_regex_partial (fun r v => .ok (v.startsWith r)) "no" "nothing" true (by decide +kernel)

end Verif
