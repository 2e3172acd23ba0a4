import Verif.Spec.Settings
import Verif.Lemmas.Interp
import Verif.Lemmas.Text
import Verif.Props.TimeValue
import Verif.Props.Messages
import Verif.Props.Collections
import Verif.Model.Setting
import Verif.Spec.Collections
/-!
# C52 to C56, C60, C67, C68: settings
-/

namespace Verif
open Py StreamInput StreamOutput Spec

variable (py : Interp)

theorem Except.ok_bind {α β : Type} (a : α) (f : α → Except Err β) : (Except.ok a >>= f) = f a := rfl

theorem Except.error_bind {α β : Type} (e : Err) (f : α → Except Err β) :
    ((Except.error e : Except Err α) >>= f) = .error e := rfl

/-! ## C52: reading settings -/

/-- C52, what really happens: reading into a `Settings` object adds the entries on the wire to its dict;
for `Settings()` that is one dict for the whole process, so every key read earlier by any such object
is still there, and the new entries show up in all of them. -/
theorem C52_violated (depth : Nat) (h : SettingsHeap) (d : Dict String PyVal) (hd : SettingsOK depth d) (rest : Bytes) :
    let fresh := SettingsHeap.new none
    let earlier := SettingsHeap.new none
    let h' := (h.readFrom depth fresh ((Settings.writeTo d).out ++ rest)).1
    (h.readFrom depth fresh ((Settings.writeTo d).out ++ rest)).2 = .ok rest ∧
    (∀ k, d.get? k = none → (h'.dict fresh).get? k = (h.dict earlier).get? k) ∧
    (∀ k v, d.get? k = some v → (h'.dict earlier).get? k = some v) := by
  intro fresh earlier h'
  have e : h.readFrom depth fresh ((Settings.writeTo d).out ++ rest) =
      ({ h with shared := d.foldl (fun d kv => d.set kv.1 kv.2) h.shared }, .ok rest) := by
    unfold SettingsHeap.readFrom
    rw [settings_read hd]
    rfl
  have e' : h'.shared = d.foldl (fun d kv => d.set kv.1 kv.2) h.shared := by
    simp only [h']; rw [e]
  refine ⟨by rw [e], ?_, ?_⟩
  · intro k hk
    show h'.shared.get? k = h.shared.get? k
    rw [e', get_foldl_set]
    have : lastValue d k = none := by
      unfold lastValue
      rw [Option.map_eq_none_iff, List.find?_eq_none]
      intro x hx
      simp only [decide_eq_true_eq]
      intro hxk
      exact Dict.get?_eq_none.1 hk (List.mem_map.2 ⟨x, List.mem_reverse.1 hx, hxk⟩)
    rw [this]; rfl
  · intro k v hk
    show h'.shared.get? k = some v
    rw [e', get_foldl_set]
    have hwf : Dict.WF d.reverse := by
      have := hd.1
      unfold Dict.WF at this ⊢
      rw [List.map_reverse]
      exact List.nodup_reverse.2 this
    have : lastValue d k = some v := by
      unfold lastValue
      cases hf : d.reverse.find? (fun kv => decide (kv.1 = k)) with
      | none =>
        rw [List.find?_eq_none] at hf
        have := hf (k, v) (List.mem_reverse.2 (Dict.get?_mem hk))
        simp at this
      | some p =>
        have h1 := List.mem_of_find?_eq_some hf
        have h2 := List.find?_some hf
        simp only [decide_eq_true_eq] at h2
        have h3 := Dict.get?_of_mem hd.1 (List.mem_reverse.1 (show (p.1, p.2) ∈ d.reverse from h1))
        rw [h2, hk] at h3
        simp only [Option.some.injEq] at h3
        simp [h3]
    rw [this]; rfl

/-- C52 violated, a case: a second `Settings()` that reads `{"b": 2}` also contains the `"a"` an earlier
one read, and the earlier one now contains `"b"`. -/
theorem C52_example_violated :
    let h1 := (({} : SettingsHeap).readFrom 3 (SettingsHeap.new none) (Settings.writeTo [("a", .int 1)]).out).1
    let h2 := (h1.readFrom 3 (SettingsHeap.new none) (Settings.writeTo [("b", .int 2)]).out).1
    h2.dict (SettingsHeap.new none) = [("a", .int 1), ("b", .int 2)] := by
  have ok : ∀ k i, k = "a" ∨ k = "b" → i = 1 ∨ i = 2 → SettingsOK 3 [(k, .int i)] := by
    intro k i hk hi
    refine ⟨by simp [Dict.WF], by simp, ?_⟩
    rcases hk with rfl | rfl <;> rcases hi with rfl | rfl <;> simp [GenericOK, nesting] <;> decide +kernel
  have e1 := settings_read (ok "a" 1 (.inl rfl) (.inl rfl)) [] []
  have e2 := settings_read (ok "b" 2 (.inr rfl) (.inr rfl)) [("a", .int 1)] []
  rw [List.append_nil] at e1 e2
  simp only [SettingsHeap.readFrom, SettingsHeap.dict, SettingsHeap.new, SettingsHeap.put, e1]
  have e3 : (List.foldl (fun (d : Dict String PyVal) kv => d.set kv.1 kv.2) [] [("a", PyVal.int 1)]) = [("a", .int 1)] := rfl
  rw [e3, e2]
  rfl

/-- C52 violated for failed reads: an exception in the second entry leaves the first in the dict. -/
theorem C52_failed_read_violated :
    let h := ({} : SettingsHeap).readFrom 3 (SettingsHeap.new none) [2, 1, 0x61, 5, 1, 1, 0x62, 99]
    h.2 = .error .exception ∧ (h.1.dict (SettingsHeap.new none)).map (·.1) = ["a"] := by
  constructor <;> decide +kernel

/-- C52, the part that holds: an object with a dict of its own that is empty ends up with exactly the
entries on the wire, in their order, and no other `Settings` object changes. -/
theorem C52_partial (depth : Nat) (h : SettingsHeap) (n : Nat) (he : h.own n = []) (d : Dict String PyVal)
    (hd : SettingsOK depth d) (rest : Bytes) :
    let r := h.readFrom depth (SettingsHeap.new (some n)) ((Settings.writeTo d).out ++ rest)
    r.2 = .ok rest ∧ r.1.dict (SettingsHeap.new (some n)) = d ∧
    ∀ ref, ref ≠ SettingsHeap.new (some n) → r.1.dict ref = h.dict ref := by
  intro r
  have hr : r = (h.put (.own n) d, .ok rest) := by
    simp only [r, SettingsHeap.readFrom, SettingsHeap.new, SettingsHeap.dict, he]
    rw [(C28_environment_settings depth d hd rest).2]
  rw [hr]
  refine ⟨rfl, by simp [SettingsHeap.put, SettingsHeap.dict, SettingsHeap.new], ?_⟩
  intro ref href
  cases ref with
  | shared => rfl
  | own m =>
    have : m ≠ n := fun e => href (by rw [e]; rfl)
    simp [SettingsHeap.put, SettingsHeap.dict, this]

/-! ## C53: a stored value overrides the default -/

section
variable {P α : Type} [SettingParser P α]

theorem get_some {st : Setting P} {d : Dict String PyVal} {s : String} (hs : s ≠ "")
    (h : Settings.get py d st.key = .ok (some s)) :
    st.get py d = (do st.validate s; SettingParser.parse py st.parser s) := by
  unfold Setting.get Setting.validate
  rw [h, Except.ok_bind]
  simp only
  rw [if_pos hs]
  cases hv : st.validator <;> rfl

theorem get_none {st : Setting P} {d : Dict String PyVal} (h : Settings.get py d st.key = .ok none) :
    st.get py d = (do SettingParser.parse py st.parser (← st.default_value d)) := by
  unfold Setting.get
  rw [h]
  rfl

/-- C53: a key that is absent gives the parsed default. -/
theorem C53_absent (st : Setting P) (d : Dict String PyVal) (h : d.get? st.key = none) :
    st.get py d = (do SettingParser.parse py st.parser (← st.default_value d)) := by
  apply get_none
  unfold Settings.get
  rw [h]

example := C53_absent sampleInterp (BooleanSetting "k" true) [("a", .int 1)] rfl

/-- C53, the part that holds: a stored value that is true in Python's sense and whose text is not empty
is validated and parsed, whatever the default.  (A text counts as itself.) -/
theorem C53_present_partial (st : Setting P) (d : Dict String PyVal) (v : PyVal) (s : String)
    (h : d.get? st.key = some v) (ht : v.truthy = true) (hs : v.text py = .ok s) (hne : s ≠ "") :
    st.get py d = (do st.validate s; SettingParser.parse py st.parser s) := by
  apply get_some py hne
  unfold Settings.get
  rw [h]
  simp only [ht, if_true, hs]
  rfl

example := C53_present_partial sampleInterp (BooleanSetting "k" true) [("k", .int 7)] (.int 7) "7" rfl rfl
  (by decide +kernel) (by decide)

/-- The usual case: a non-empty text. -/
theorem C53_text_partial (st : Setting P) (d : Dict String PyVal) (s : String)
    (h : d.get? st.key = some (.str s)) (hne : s ≠ "") :
    st.get py d = (do st.validate s; SettingParser.parse py st.parser s) :=
  C53_present_partial py st d (.str s) s h (by simpa [PyVal.truthy] using hne) rfl hne

example := C53_text_partial sampleInterp (BooleanSetting "k" true) [("k", .str "no")] "no" rfl (by decide)

/-- C53 is violated by every stored value that is false in Python's sense (among them 0, False, "", an empty list, empty bytes,
None, and 0.0, an empty set or mapping): the setting reads as if the key were absent. -/
theorem C53_violated (st : Setting P) (d d' : Dict String PyVal) (v : PyVal) (h : d.get? st.key = some v)
    (hv : v = .int 0 ∨ v = .bool false ∨ v = .str "" ∨ v = .list [] ∨ v = .bytes [] ∨ v = .none ∨ ∃ x, v = .other false x)
    (h' : d'.get? st.key = none) (hdef : st.default_value d = st.default_value d') :
    st.get py d = st.get py d' := by
  rw [C53_absent py st d' h', ← hdef]
  apply get_none
  unfold Settings.get
  rw [h]
  have : v.truthy = false := by
    rcases hv with rfl | rfl | rfl | rfl | rfl | rfl | ⟨x, rfl⟩ <;> rfl
  simp [this]

example := C53_violated sampleInterp (BooleanSetting "k" true) [("k", .bool false)] [("a", .int 1)] (.bool false) rfl
  (.inr (.inl rfl)) rfl rfl

/-- C53, the rest of the cases: a stored value that is true in Python's sense but whose text is empty gives the default as well,
and one whose text cannot be made makes `get` raise what `str` raised. -/
theorem C53_empty_text_partial (st : Setting P) (d : Dict String PyVal) (v : PyVal) (h : d.get? st.key = some v)
    (ht : v.truthy = true) :
    (v.text py = .ok "" → st.get py d = (do SettingParser.parse py st.parser (← st.default_value d))) ∧
    (∀ e, v.text py = .error e → st.get py d = .error e) := by
  constructor
  · intro hs
    unfold Setting.get Settings.get
    rw [h]
    simp only [ht, if_true, hs]
    rfl
  · intro e hs
    unfold Setting.get Settings.get
    rw [h]
    simp only [ht, if_true, hs]
    rfl

end

example := C53_empty_text_partial sampleInterp (BooleanSetting "k" true) [("k", .other true "object")] _ rfl rfl

/-! ## C54: integers and longs -/

theorem intNew_ok {w : Nat} {min max : Int} {key : String} {props : List PropArg} {p : IntParser}
    (h : IntParser.new w min max key props = .ok p) :
    p = ⟨min, max, key, filteredIn props⟩ ∧ (-(2 ^ (w - 1)) ≤ min ∧ min ≤ 2 ^ (w - 1) - 1) ∧
      (-(2 ^ (w - 1)) ≤ max ∧ max ≤ 2 ^ (w - 1) - 1) := by
  unfold IntParser.new at h
  split at h
  · simp at h
  · next h1 =>
    split at h
    · simp at h
    · next h2 =>
      simp only [Except.ok.injEq] at h
      simp only [not_not] at h1 h2
      exact ⟨h.symm, h1, h2⟩

theorem boundsCheck_ok {p : IntParser} {v r : Int} (h : p.boundsCheck v = .ok r) :
    r = v ∧ p.min_value ≤ r ∧ r ≤ p.max_value := by
  unfold IntParser.boundsCheck at h
  split at h
  · simp at h
  · next hb =>
    simp only [Except.ok.injEq] at h
    subst h
    simp only [not_not] at hb
    exact ⟨rfl, hb⟩

/-- What constructing an integer setting (`w` = 32) or a long setting (`w` = 64) comes to. -/
def IntSettingOK (w : Nat) (default min max : Int) : Prop :=
  -(2 ^ (w - 1)) ≤ min ∧ max ≤ 2 ^ (w - 1) - 1 ∧ min ≤ default ∧ default ≤ max

/-- The setting object that results. -/
def intSettingOf (key : String) (default min max : Int) (properties : List Property) : Setting IntParser :=
  ⟨.INTEGER, key, fun _ => strInt py.u default, ⟨min, max, key, false⟩, none, [.tuple properties]⟩

/-- A nested tuple never contains FILTERED. -/
theorem filteredIn_tuple (l : List Property) : filteredIn [.tuple l] = false := rfl

theorem intSetting_gen (w : Nat) (key : String) (default min max : Int) (properties : List Property)
    (st : Setting IntParser) :
    (do
      let parser ← IntParser.new w min max key [.tuple properties]
      let _ ← parser.boundsCheck default
      return ⟨.INTEGER, key, fun _ => strInt py.u default, parser, none, [.tuple properties]⟩ :
        Except Err (Setting IntParser)) = .ok st ↔
      st = intSettingOf py key default min max properties ∧ IntSettingOK w default min max := by
  unfold IntSettingOK intSettingOf
  cases hn : IntParser.new w min max key [.tuple properties] with
  | error e =>
    constructor
    · intro h; exact absurd h (by simp [bind, Except.bind])
    · rintro ⟨-, h1, h2, h3, h4⟩
      unfold IntParser.new at hn
      rw [if_neg (by omega), if_neg (by omega)] at hn
      simp at hn
  | ok p =>
    obtain ⟨rfl, h1, h2⟩ := intNew_ok hn
    cases hb : IntParser.boundsCheck ⟨min, max, key, filteredIn [.tuple properties]⟩ default with
    | error e =>
      constructor
      · intro h; exact absurd h (by simp [bind, Except.bind, hb])
      · rintro ⟨-, -, -, h3⟩
        unfold IntParser.boundsCheck at hb
        rw [if_neg (by simpa using h3)] at hb
        simp at hb
    | ok r =>
      obtain ⟨rfl, h3⟩ := boundsCheck_ok hb
      constructor
      · intro h
        rw [Except.ok_bind, hb, Except.ok_bind, filteredIn_tuple] at h
        exact ⟨(Except.ok.inj h).symm, h1.1, h2.2, h3⟩
      · rintro ⟨rfl, -⟩
        rw [Except.ok_bind, hb, Except.ok_bind, filteredIn_tuple]
        rfl

theorem integerSetting_iff (key : String) (default min max : Int) (properties : List Property) (st : Setting IntParser) :
    IntegerSetting py key default min max properties = .ok st ↔
      st = intSettingOf py key default min max properties ∧ IntSettingOK 32 default min max :=
  intSetting_gen py 32 key default min max properties st

theorem longSetting_iff (key : String) (default min max : Int) (properties : List Property) (st : Setting IntParser) :
    LongSetting py key default min max properties = .ok st ↔
      st = intSettingOf py key default min max properties ∧ IntSettingOK 64 default min max :=
  intSetting_gen py 64 key default min max properties st

/-- C54: the constructors accept exactly the bounds of the 32- or 64-bit range with the default
between them. -/
theorem C54_constructs (key : String) (default min max : Int) (properties : List Property) :
    ((∃ st, IntegerSetting py key default min max properties = .ok st) ↔
      -(2 ^ 31) ≤ min ∧ max ≤ 2 ^ 31 - 1 ∧ min ≤ default ∧ default ≤ max) ∧
    ((∃ st, LongSetting py key default min max properties = .ok st) ↔
      -(2 ^ 63) ≤ min ∧ max ≤ 2 ^ 63 - 1 ∧ min ≤ default ∧ default ≤ max) := by
  constructor
  · constructor
    · rintro ⟨st, h⟩; exact ((integerSetting_iff py ..).1 h).2
    · intro h; exact ⟨_, (integerSetting_iff py ..).2 ⟨rfl, h⟩⟩
  · constructor
    · rintro ⟨st, h⟩; exact ((longSetting_iff py ..).1 h).2
    · intro h; exact ⟨_, (longSetting_iff py ..).2 ⟨rfl, h⟩⟩

theorem intSetting_get {key : String} {default min max : Int} {properties : List Property} {d : Dict String PyVal}
    {n : Int} (h : (intSettingOf py key default min max properties).get py d = .ok n) : min ≤ n ∧ n ≤ max := by
  unfold Setting.get at h
  have parse_ok : ∀ s, SettingParser.parse py (intSettingOf py key default min max properties).parser s = .ok n →
      min ≤ n ∧ n ≤ max := by
    intro s hs
    change (intOfStr py.u s >>= fun v => IntParser.boundsCheck ⟨min, max, key, false⟩ v) = _ at hs
    cases hi : intOfStr py.u s with
    | error e => rw [hi] at hs; simp [Except.error_bind] at hs
    | ok v => rw [hi, Except.ok_bind] at hs; exact (boundsCheck_ok hs).2
  have default_ok : ((intSettingOf py key default min max properties).default_value d >>= fun s =>
      SettingParser.parse py (intSettingOf py key default min max properties).parser s) = .ok n → min ≤ n ∧ n ≤ max := by
    intro hd
    cases hs : (intSettingOf py key default min max properties).default_value d with
    | error e => rw [hs, Except.error_bind] at hd; simp at hd
    | ok s => rw [hs, Except.ok_bind] at hd; exact parse_ok s hd
  cases hg : Settings.get py d (intSettingOf py key default min max properties).key with
  | error e => rw [hg, Except.error_bind] at h; simp at h
  | ok o =>
    rw [hg, Except.ok_bind] at h
    cases o with
    | none => exact default_ok h
    | some s =>
      simp only at h
      split at h
      · exact parse_ok s h
      · exact default_ok h

/-- C54: whatever is stored, an integer setting raises or gives a number within its bounds, which lie in
the 32-bit range. -/
theorem C54_integer {key : String} {default min max : Int} {properties : List Property} {st : Setting IntParser}
    (hc : IntegerSetting py key default min max properties = .ok st) {d : Dict String PyVal} {n : Int}
    (h : st.get py d = .ok n) : min ≤ n ∧ n ≤ max ∧ -(2 ^ 31) ≤ n ∧ n < 2 ^ 31 := by
  obtain ⟨rfl, h1, h2, -, -⟩ := (integerSetting_iff py ..).1 hc
  have := intSetting_get py h
  omega

example := C54_integer sampleInterp (key := "n") (default := 5) (min := 0) (max := 9) (properties := [.DYNAMIC]) rfl
  (d := [("n", .str "7")]) (n := 7) (by decide +kernel)

/-- C54: the same for long settings and the 64-bit range. -/
theorem C54_long {key : String} {default min max : Int} {properties : List Property} {st : Setting IntParser}
    (hc : LongSetting py key default min max properties = .ok st) {d : Dict String PyVal} {n : Int}
    (h : st.get py d = .ok n) : min ≤ n ∧ n ≤ max ∧ -(2 ^ 63) ≤ n ∧ n < 2 ^ 63 := by
  obtain ⟨rfl, h1, h2, -, -⟩ := (longSetting_iff py ..).1 hc
  have := intSetting_get py h
  omega

example := C54_long sampleInterp (key := "n") (default := 5) (min := 0) (max := 2 ^ 40) (properties := [.DYNAMIC]) rfl
  (d := [("n", .int (2 ^ 40))]) (n := 2 ^ 40) (by decide +kernel)

theorem lt_ten_pow {i : Int} (h1 : -(2 ^ 63) ≤ i) (h2 : i ≤ 2 ^ 63 - 1) : i.natAbs < 10 ^ 640 := by
  have : (10 : Nat) ^ 19 ≤ 10 ^ 640 := Nat.pow_le_pow_right (by decide) (by decide)
  generalize (10 : Nat) ^ 640 = x at this
  omega

theorem intSetting_parse_str {key : String} {default min max n : Int} {properties : List Property} {s : String}
    (hs : strInt py.u n = .ok s) (h1 : min ≤ n) (h2 : n ≤ max) :
    SettingParser.parse py (intSettingOf py key default min max properties).parser s = .ok n := by
  change (intOfStr py.u s >>= fun v => IntParser.boundsCheck ⟨min, max, key, false⟩ v) = _
  rw [intOfStr_strInt py.u hs, Except.ok_bind]
  unfold IntParser.boundsCheck
  rw [if_neg (by simp [h1, h2])]

theorem intSetting_absent {w : Nat} (hw : w ≤ 64) {key : String} {default min max : Int} {properties : List Property}
    (hok : IntSettingOK w default min max) {d : Dict String PyVal} (h : d.get? key = none) :
    (intSettingOf py key default min max properties).get py d = .ok default := by
  rw [C53_absent py _ d h]
  obtain ⟨h1, h2, h3, h4⟩ := hok
  have hp : (2 : Int) ^ (w - 1) ≤ 2 ^ 63 := pow_le_pow_right₀ (by decide) (by omega)
  have hs := strInt_ok py.u (lt_ten_pow (i := default) (by omega) (by omega))
  change (strInt py.u default >>= fun s => _) = _
  rw [hs, Except.ok_bind]
  exact intSetting_parse_str py hs h3 h4

/-- C54: an absent key gives the default. -/
theorem C54_default {key : String} {default min max : Int} {properties : List Property} {st : Setting IntParser}
    (hc : IntegerSetting py key default min max properties = .ok st ∨
      LongSetting py key default min max properties = .ok st) {d : Dict String PyVal} (h : d.get? key = none) :
    st.get py d = .ok default := by
  rcases hc with hc | hc
  · obtain ⟨rfl, hok⟩ := (integerSetting_iff py ..).1 hc
    exact intSetting_absent py (by decide) hok h
  · obtain ⟨rfl, hok⟩ := (longSetting_iff py ..).1 hc
    exact intSetting_absent py (by decide) hok h

example := C54_default sampleInterp (key := "n") (default := 5) (min := 0) (max := 9) (properties := [.DYNAMIC])
  (.inl rfl) (d := [("m", .str "7")]) rfl

/-- C54: a number within the bounds, stored as text (or as a number other than 0), is what the setting
gives. -/
theorem C54_stored {key : String} {default min max : Int} {properties : List Property} {st : Setting IntParser}
    (hc : IntegerSetting py key default min max properties = .ok st ∨
      LongSetting py key default min max properties = .ok st) {d : Dict String PyVal} {n : Int}
    (h1 : min ≤ n) (h2 : n ≤ max) (h : d.get? key = some (.str (toString n)) ∨ (d.get? key = some (.int n) ∧ n ≠ 0)) :
    st.get py d = .ok n := by
  have key' : st = intSettingOf py key default min max properties ∧ -(2 ^ 63) ≤ min ∧ max ≤ 2 ^ 63 - 1 := by
    rcases hc with hc | hc
    · obtain ⟨rfl, hok, h', -, -⟩ := (integerSetting_iff py ..).1 hc
      exact ⟨rfl, by omega, by omega⟩
    · obtain ⟨rfl, hok, h', -, -⟩ := (longSetting_iff py ..).1 hc
      exact ⟨rfl, hok, h'⟩
  obtain ⟨rfl, hmin, hmax⟩ := key'
  have hs := strInt_ok py.u (lt_ten_pow (i := n) (by omega) (by omega))
  have hne : toString n ≠ "" := by
    cases n with
    | ofNat m =>
      intro e
      have := congrArg String.toList e
      rw [show toString (Int.ofNat m) = toString m from rfl, toString_nat_toList] at this
      exact Nat.toDigits_ne_nil this
    | negSucc m =>
      intro e
      have := congrArg String.toList e
      rw [toString_int_neg, String.toList_append] at this
      simp at this
  have hp := intSetting_parse_str py (key := key) (default := default) (properties := properties) hs h1 h2
  rcases h with h | ⟨h, h0⟩
  · rw [C53_text_partial py _ d _ h hne]
    exact hp
  · rw [C53_present_partial py _ d (.int n) (toString n) h (by simpa [PyVal.truthy] using h0) hs hne]
    exact hp

example := C54_stored sampleInterp (key := "n") (default := 5) (min := -9) (max := 9) (properties := [.DYNAMIC])
  (.inl rfl) (d := [("n", .int (-7))]) (n := -7) (by decide) (by decide) (.inr ⟨rfl, by decide⟩)

/-! ## C55: times and sizes -/

theorem time_boundsCheck_iff {p : TimeParser} (h1 : -1 ≤ p.min_value.duration) (h2 : -1 ≤ p.max_value.duration)
    (v r : TimeValue) : p.boundsCheck v = .ok r ↔ r = v ∧ TimeWithin p.min_value p.max_value v := by
  unfold TimeParser.boundsCheck TimeWithin
  simp only [C58_nanos]
  generalize p.min_value.duration * nanosIn p.min_value.time_unit = a
  generalize p.max_value.duration * nanosIn p.max_value.time_unit = b
  generalize v.duration * nanosIn v.time_unit = c
  split
  · constructor
    · intro h; simp at h
    · rintro ⟨-, h⟩; omega
  · split
    · constructor
      · intro h; simp at h
      · rintro ⟨-, h⟩; omega
    · constructor
      · intro h; exact ⟨(Except.ok.inj h).symm, by omega⟩
      · rintro ⟨rfl, -⟩; rfl

theorem size_boundsCheck_iff {p : SizeParser} (h1 : -1 ≤ p.min_value.size) (h2 : -1 ≤ p.max_value.size)
    (v r : ByteSizeValue) : p.boundsCheck v = .ok r ↔ r = v ∧ SizeWithin p.min_value p.max_value v := by
  unfold SizeParser.boundsCheck SizeWithin
  simp only [C58_bytes]
  generalize p.min_value.size * bytesIn p.min_value.unit = a
  generalize p.max_value.size * bytesIn p.max_value.unit = b
  generalize v.size * bytesIn v.unit = c
  split
  · constructor
    · intro h; simp at h
    · rintro ⟨-, h⟩; omega
  · split
    · constructor
      · intro h; simp at h
      · rintro ⟨-, h⟩; omega
    · constructor
      · intro h; exact ⟨(Except.ok.inj h).symm, by omega⟩
      · rintro ⟨rfl, -⟩; rfl

/-- Whatever `get` returns was parsed from some text. -/
theorem get_parsed {P α : Type} [SettingParser P α] {st : Setting P} {d : Dict String PyVal} {a : α}
    (h : st.get py d = .ok a) : ∃ s, SettingParser.parse py st.parser s = .ok a ∧
      ((s ≠ "" ∧ st.validate s = .ok ()) ∨ st.default_value d = .ok s) := by
  unfold Setting.get at h
  have hdef : (st.default_value d >>= fun s => SettingParser.parse py st.parser s) = .ok a →
      ∃ s, SettingParser.parse py st.parser s = .ok a ∧
        ((s ≠ "" ∧ st.validate s = .ok ()) ∨ st.default_value d = .ok s) := by
    intro hd
    cases hs : st.default_value d with
    | error e => rw [hs, Except.error_bind] at hd; simp at hd
    | ok s => rw [hs, Except.ok_bind] at hd; exact ⟨s, hd, .inr rfl⟩
  cases hg : Settings.get py d st.key with
  | error e => rw [hg, Except.error_bind] at h; simp at h
  | ok o =>
    rw [hg, Except.ok_bind] at h
    cases o with
    | none => exact hdef h
    | some s =>
      simp only at h
      split at h
      · next hne =>
        refine ⟨s, ?_, .inl ⟨hne, ?_⟩⟩
        · cases hv : st.validator with
          | none => rw [hv] at h; exact h
          | some v =>
            rw [hv] at h
            simp only at h
            cases hvs : v s with
            | error e => rw [hvs, Except.error_bind] at h; simp at h
            | ok _ => rw [hvs, Except.ok_bind] at h; exact h
        · unfold Setting.validate
          cases hv : st.validator with
          | none => rfl
          | some v =>
            rw [hv] at h
            simp only at h ⊢
            cases hvs : v s with
            | error e => rw [hvs, Except.error_bind] at h; simp at h
            | ok _ => rfl
      · exact hdef h

/-- The setting object a successful `TimeValueSetting(...)` gives. -/
def timeSettingOf (key : String) (default min max : TimeValue) (properties : List Property) : Setting TimeParser :=
  ⟨.TIME_VALUE, key, fun _ => default.str py.u, ⟨min, max, key, false⟩, none, [.tuple properties]⟩

theorem timeSetting_iff (key : String) (default min max : TimeValue) (properties : List Property)
    (st : Setting TimeParser) :
    TimeValueSetting py key default min max properties = .ok st ↔
      st = timeSettingOf py key default min max properties ∧
      (-1 ≤ min.duration ∧ -1 ≤ max.duration ∧ TimeWithin min max default) := by
  unfold TimeValueSetting timeSettingOf TimeParser.new
  by_cases h1 : min.duration < -1
  · rw [if_pos h1, Except.error_bind]
    constructor
    · intro h; simp at h
    · rintro ⟨-, h, -⟩; omega
  · rw [if_neg h1]
    by_cases h2 : max.duration < -1
    · rw [if_pos h2, Except.error_bind]
      constructor
      · intro h; simp at h
      · rintro ⟨-, -, h, -⟩; omega
    · rw [if_neg h2, Except.ok_bind, filteredIn_tuple]
      have hb := time_boundsCheck_iff (p := ⟨min, max, key, false⟩) (by simp only; omega) (by simp only; omega) default
      cases hc : TimeParser.boundsCheck ⟨min, max, key, false⟩ default with
      | error e =>
        rw [Except.error_bind]
        constructor
        · intro h; simp at h
        · rintro ⟨-, -, -, h⟩; rw [(hb default).2 ⟨rfl, h⟩] at hc; simp at hc
      | ok r =>
        rw [Except.ok_bind]
        constructor
        · intro h; exact ⟨(Except.ok.inj h).symm, by omega, by omega, ((hb r).1 hc).2⟩
        · rintro ⟨rfl, -⟩; rfl

/-- The setting object a successful `ByteSizeValueSetting(...)` gives. -/
def sizeSettingOf (key : String) (default min max : ByteSizeValue) (properties : List Property) : Setting SizeParser :=
  ⟨.TIME_VALUE, key, fun _ => default.str py.u, ⟨min, max, key⟩, none, [.tuple properties]⟩

theorem sizeSetting_iff (key : String) (default min max : ByteSizeValue) (properties : List Property)
    (st : Setting SizeParser) :
    ByteSizeValueSetting py key default min max properties = .ok st ↔
      st = sizeSettingOf py key default min max properties ∧
      (-1 ≤ min.size ∧ -1 ≤ max.size ∧ SizeWithin min max default) := by
  unfold ByteSizeValueSetting sizeSettingOf SizeParser.new
  by_cases h1 : min.size < -1
  · rw [if_pos h1, Except.error_bind]
    constructor
    · intro h; simp at h
    · rintro ⟨-, h, -⟩; omega
  · rw [if_neg h1]
    by_cases h2 : max.size < -1
    · rw [if_pos h2, Except.error_bind]
      constructor
      · intro h; simp at h
      · rintro ⟨-, -, h, -⟩; omega
    · rw [if_neg h2, Except.ok_bind]
      have hb := size_boundsCheck_iff (p := ⟨min, max, key⟩) (by simp only; omega) (by simp only; omega) default
      cases hc : SizeParser.boundsCheck ⟨min, max, key⟩ default with
      | error e =>
        rw [Except.error_bind]
        constructor
        · intro h; simp at h
        · rintro ⟨-, -, -, h⟩; rw [(hb default).2 ⟨rfl, h⟩] at hc; simp at hc
      | ok r =>
        rw [Except.ok_bind]
        constructor
        · intro h; exact ⟨(Except.ok.inj h).symm, by omega, by omega, ((hb r).1 hc).2⟩
        · rintro ⟨rfl, -⟩; rfl

/-- C55: the constructors accept bounds of at least -1 and a default between them - compared in
nanoseconds or bytes - and nothing else. -/
theorem C55_constructs (key : String) (properties : List Property) :
    (∀ default min max : TimeValue, (∃ st, TimeValueSetting py key default min max properties = .ok st) ↔
      -1 ≤ min.duration ∧ -1 ≤ max.duration ∧ TimeWithin min max default) ∧
    (∀ default min max : ByteSizeValue, (∃ st, ByteSizeValueSetting py key default min max properties = .ok st) ↔
      -1 ≤ min.size ∧ -1 ≤ max.size ∧ SizeWithin min max default) := by
  constructor
  · intro default min max
    constructor
    · rintro ⟨st, h⟩; exact ((timeSetting_iff py ..).1 h).2
    · intro h; exact ⟨_, (timeSetting_iff py ..).2 ⟨rfl, h⟩⟩
  · intro default min max
    constructor
    · rintro ⟨st, h⟩; exact ((sizeSetting_iff py ..).1 h).2
    · intro h; exact ⟨_, (sizeSetting_iff py ..).2 ⟨rfl, h⟩⟩

/-- C55: whatever is stored, a time setting raises or gives a value between its bounds. -/
theorem C55_time {key : String} {default min max : TimeValue} {properties : List Property} {st : Setting TimeParser}
    (hc : TimeValueSetting py key default min max properties = .ok st) {d : Dict String PyVal} {v : TimeValue}
    (h : st.get py d = .ok v) : TimeWithin min max v := by
  obtain ⟨rfl, h1, h2, -⟩ := (timeSetting_iff py ..).1 hc
  obtain ⟨s, hs, -⟩ := get_parsed py h
  change (TimeValue.parse py.u s >>= fun v => TimeParser.boundsCheck ⟨min, max, key, false⟩ v) = _ at hs
  cases hp : TimeValue.parse py.u s with
  | error e => rw [hp, Except.error_bind] at hs; simp at hs
  | ok x =>
    rw [hp, Except.ok_bind] at hs
    have := (time_boundsCheck_iff h1 h2 x v).1 hs
    rw [this.1]
    exact this.2

example := C55_time sampleInterp (key := "t") (default := ⟨1, .DAYS⟩) (min := ⟨1, .HOURS⟩) (max := ⟨3, .DAYS⟩)
  (properties := []) rfl (d := [("t", .str "2h")]) (v := ⟨2, .HOURS⟩) (by decide +kernel)

/-- C55: the same for byte sizes. -/
theorem C55_size {key : String} {default min max : ByteSizeValue} {properties : List Property} {st : Setting SizeParser}
    (hc : ByteSizeValueSetting py key default min max properties = .ok st) {d : Dict String PyVal} {v : ByteSizeValue}
    (h : st.get py d = .ok v) : SizeWithin min max v := by
  obtain ⟨rfl, h1, h2, -⟩ := (sizeSetting_iff py ..).1 hc
  obtain ⟨s, hs, -⟩ := get_parsed py h
  change (ByteSizeValue.parse py.u s >>= fun v => SizeParser.boundsCheck ⟨min, max, key⟩ v) = _ at hs
  cases hp : ByteSizeValue.parse py.u s with
  | error e => rw [hp, Except.error_bind] at hs; simp at hs
  | ok x =>
    rw [hp, Except.ok_bind] at hs
    have := (size_boundsCheck_iff h1 h2 x v).1 hs
    rw [this.1]
    exact this.2

example := C55_size sampleInterp (key := "t") (default := ⟨1, .KB⟩) (min := ⟨1, .BYTES⟩) (max := ⟨-1, .KB⟩)
  (properties := []) rfl (d := [("t", .str "10kb")]) (v := ⟨10, .KB⟩) (by decide +kernel)

/-- One day is within 23 hours and 1440 minutes, not within 25 hours and more. -/
example : TimeWithin ⟨23, .HOURS⟩ ⟨1440, .MINUTES⟩ ⟨1, .DAYS⟩ ∧ ¬ TimeWithin ⟨25, .HOURS⟩ ⟨-1, .DAYS⟩ ⟨1, .DAYS⟩ := by
  unfold TimeWithin; decide

/-! ## C56: validated strings -/

theorem stringSetting_ok {key default : String} {validator : Option (String → Except Err Unit)}
    {properties : List Property} {st : Setting TextParser}
    (h : StringSetting key default validator properties = .ok st) :
    st = ⟨.STRING, key, fun _ => .ok default, .parser, validator, [.tuple properties]⟩ ∧
      ∀ v, validator = some v → v default = .ok () := by
  unfold StringSetting at h
  cases validator with
  | none => exact ⟨(Except.ok.inj h).symm, by simp⟩
  | some v =>
    simp only at h
    cases hv : v default with
    | error e => rw [hv, Except.error_bind] at h; simp at h
    | ok _ =>
      rw [hv, Except.ok_bind] at h
      exact ⟨(Except.ok.inj h).symm, by intro v' e; cases e; exact hv⟩

/-- C56: a string setting never returns a text its validator rejects. -/
theorem C56_validated {key default : String} {validate : String → Except Err Unit} {properties : List Property}
    {st : Setting TextParser} (hc : StringSetting key default (some validate) properties = .ok st)
    {d : Dict String PyVal} {s : String} (h : st.get py d = .ok s) : validate s = .ok () := by
  obtain ⟨rfl, hdef⟩ := stringSetting_ok hc
  obtain ⟨t, ht, h'⟩ := get_parsed py h
  have : t = s := Except.ok.inj ht
  subst this
  rcases h' with ⟨-, hv⟩ | hd
  · exact hv
  · have : default = t := Except.ok.inj hd
    subst this
    exact hdef validate rfl

example := C56_validated sampleInterp (key := "k") (default := "ab")
  (validate := fun s => if s.length = 2 then .ok () else .error .value) (properties := []) rfl
  (d := [("k", .str "cd")]) (s := "cd") (by decide +kernel)

/-- C56: a setting whose default is rejected cannot be constructed. -/
theorem C56_default_rejected {key default : String} {validate : String → Except Err Unit} {properties : List Property}
    {e : Err} (h : validate default = .error e) :
    StringSetting key default (some validate) properties = .error e := by
  unfold StringSetting
  simp only [h]
  rfl

example := C56_default_rejected (key := "k") (default := "abc")
  (validate := fun s => if s.length = 2 then .ok () else .error .value) (properties := []) (e := .value) rfl

/-- C56: a regular-expression validator accepts exactly the texts for which `re.match` gives a match if
`is_matching`, and no match otherwise; an invalid expression raises. -/
theorem C56_regex (reMatch : String → String → Except Err Bool) (v : RegexValidator) (s : String) :
    v.validate reMatch s = .ok () ↔ reMatch v.regex s = .ok v.is_matching := by
  unfold RegexValidator.validate
  cases hm : reMatch v.regex s with
  | error e => cases v.is_matching <;> simp [Except.error_bind]
  | ok m => cases v.is_matching <;> cases m <;> simp [Except.ok_bind, throw, throwThe, MonadExceptOf.throw] <;> rfl

/-- A setting with a validator that accepts its default and rejects a stored text. -/
example : ∃ st, StringSetting "k" "ab" (some fun s => if s.length = 2 then .ok () else .error .value) = .ok st ∧
    (∀ py, st.get py [] = .ok "ab") ∧ (∀ py, st.get py [("k", .str "xyz")] = .error .value) :=
  ⟨_, rfl, fun _ => rfl, fun _ => rfl⟩

/-! ## C60: FILTERED -/

/-- C60 is violated: no setting object has a parser that reports `is_filtered`, and FILTERED is never
among its properties, even when it was given. -/
theorem C60_violated (key : String) (properties : List Property) :
    (∀ default min max st, IntegerSetting py key default min max properties = .ok st →
      st.parser.is_filtered = false ∧ filteredIn st.properties = false) ∧
    (∀ default min max st, LongSetting py key default min max properties = .ok st →
      st.parser.is_filtered = false ∧ filteredIn st.properties = false) ∧
    (∀ type default min max st, FloatingSetting py type key default min max properties = .ok st →
      st.parser.is_filtered = false ∧ filteredIn st.properties = false) ∧
    (∀ default min max st, TimeValueSetting py key default min max properties = .ok st →
      st.parser.is_filtered = false ∧ filteredIn st.properties = false) := by
  refine ⟨?_, ?_, ?_, ?_⟩
  · intro default min max st h
    rw [((integerSetting_iff py ..).1 h).1]; exact ⟨rfl, rfl⟩
  · intro default min max st h
    rw [((longSetting_iff py ..).1 h).1]; exact ⟨rfl, rfl⟩
  · intro type default min max st h
    unfold FloatingSetting at h
    simp only at h
    cases hb : (FloatParser.new min max key [.tuple properties]).boundsCheck default with
    | error e => rw [hb, Except.error_bind] at h; simp at h
    | ok r => rw [hb, Except.ok_bind] at h; rw [← Except.ok.inj h]; exact ⟨rfl, rfl⟩
  · intro default min max st h
    rw [((timeSetting_iff py ..).1 h).1]; exact ⟨rfl, rfl⟩

/-- The settings of C60_violated exist, with FILTERED given. -/
example : ∃ st, IntegerSetting py "k" 5 0 9 [.FILTERED, .DYNAMIC] = .ok st := ⟨_, rfl⟩

/-- C60, the part that holds: a parser that is constructed directly knows whether it was given FILTERED. -/
theorem C60_partial (key : String) (properties : List Property) :
    (∀ w min max p, IntParser.new w min max key (properties.map .prop) = .ok p →
      (p.is_filtered = true ↔ .FILTERED ∈ properties)) ∧
    (∀ min max p, TimeParser.new min max key (properties.map .prop) = .ok p →
      (p.is_filtered = true ↔ .FILTERED ∈ properties)) ∧
    (∀ min max, (FloatParser.new min max key (properties.map .prop)).is_filtered = true ↔ .FILTERED ∈ properties) := by
  have key' : filteredIn (properties.map .prop) = true ↔ .FILTERED ∈ properties := by
    unfold filteredIn
    rw [List.any_eq_true]
    constructor
    · rintro ⟨x, hx, hb⟩
      obtain ⟨q, hq, rfl⟩ := List.mem_map.1 hx
      simp only [beq_iff_eq, PropArg.prop.injEq] at hb
      rw [← hb]; exact hq
    · intro h
      exact ⟨.prop .FILTERED, List.mem_map.2 ⟨_, h, rfl⟩, by simp⟩
  refine ⟨?_, ?_, ?_⟩
  · intro w min max p h
    obtain ⟨rfl, -⟩ := intNew_ok h
    exact key'
  · intro min max p h
    unfold TimeParser.new at h
    split at h
    · simp at h
    · split at h
      · simp at h
      · rw [← Except.ok.inj h]; exact key'
  · intro min max
    exact key'

theorem settingsOK_one : SettingsOK 3 [("a", .int 5)] := by
  refine ⟨by decide +kernel, by decide, ?_⟩
  simp only [GenericOK, nesting, List.mem_cons, List.not_mem_nil, or_false, forall_eq]
  decide +kernel
example := C52_partial 3 { shared := [("b", .bool true)], own := fun _ => [] } 0 rfl [("a", .int 5)] settingsOK_one [7]
example := C52_violated 3 { shared := [("b", .bool true)], own := fun _ => [] } [("a", .int 5)] settingsOK_one [7]

end Verif
