import Verif.Spec.Numbers
import Verif.Props.Configured
/-!
# C131: exactly which texts a whole-number setting accepts
-/

namespace Verif
open Py StreamInput StreamOutput

variable (u : Unicode)

theorem digits_head {c : Char} {cs : List Char} {ds : List Nat} (h : Digits u (c :: cs) ds) : (u.digitVal c).isSome := by
  cases h <;> simp_all

theorem digits_intDigits {l : List Char} {ds : List Nat} (h : Digits u l ds) : intDigits u l = some ds := by
  induction h with
  | last h => unfold intDigits; rw [h]
  | @next c d cs ds h t ih =>
    unfold intDigits
    rw [h]
    cases cs with
    | nil => cases t
    | cons c' cs =>
      simp only
      rw [if_neg (digit_ne_sign u (digits_head u t)).2.2, ih]; rfl
  | @grouped c d cs ds h t ih =>
    unfold intDigits
    rw [h]
    simp only
    rw [if_pos trivial, ih]; rfl

theorem intDigits_digits' : ∀ (k : Nat) (l : List Char), l.length ≤ k → ∀ ds, intDigits u l = some ds → Digits u l ds := by
  intro k
  induction k with
  | zero =>
    intro l hl ds h
    have : l = [] := List.length_eq_zero_iff.1 (by omega)
    subst this
    rw [intDigits] at h; cases h
  | succ k ih =>
    intro l hl ds h
    match l, hl, h with
    | [], _, h => rw [intDigits] at h; cases h
    | [c], _, h =>
      unfold intDigits at h
      cases hd : u.digitVal c with
      | none => rw [hd] at h; cases h
      | some d => rw [hd] at h; cases h; exact .last hd
    | c :: c' :: cs, hl, h =>
      unfold intDigits at h
      cases hd : u.digitVal c with
      | none => rw [hd] at h; cases h
      | some d =>
        rw [hd] at h
        simp only at h
        by_cases hu : c' = '_'
        · rw [if_pos hu] at h
          obtain ⟨ds', h1, rfl⟩ := Option.map_eq_some_iff.1 h
          rw [hu]
          exact .grouped hd (ih cs (by simp at hl; omega) _ h1)
        · rw [if_neg hu] at h
          obtain ⟨ds', h1, rfl⟩ := Option.map_eq_some_iff.1 h
          exact .next hd (ih (c' :: cs) (by simp at hl ⊢; omega) _ h1)

theorem ofDigits_decimal (ds : List Nat) : ofDigits ds = decimal ds := by
  have key : ∀ (ds : List Nat) (a : Nat), ds.foldl (fun acc d => 10 * acc + d) a = a * 10 ^ ds.length + decimal ds := by
    intro ds
    induction ds with
    | nil => intro a; simp [decimal]
    | cons d ds ih =>
      intro a
      rw [List.foldl_cons, ih, decimal, List.length_cons, Nat.pow_succ, Nat.add_mul]
      rw [Nat.mul_comm (10 ^ ds.length) 10, ← Nat.mul_assoc, Nat.mul_comm a 10, Nat.add_assoc]
  unfold ofDigits
  rw [key]; simp

theorem allowed_iff (k : Nat) : allowed u k = true ↔ ∀ most, u.maxDigits = some most → k ≤ most := by
  unfold allowed
  cases u.maxDigits <;> simp

theorem natOfChars_iff (l : List Char) (n : Nat) : natOfChars u l = .ok n ↔
    ∃ ds, Digits u l ds ∧ (∀ most, u.maxDigits = some most → ds.length ≤ most) ∧ n = decimal ds := by
  unfold natOfChars
  constructor
  · intro h
    cases e : intDigits u l with
    | none => rw [e] at h; cases h
    | some ds =>
      rw [e] at h
      simp only at h
      split at h
      · next ha =>
        cases h
        exact ⟨ds, intDigits_digits' u _ l (Nat.le_refl _) ds e, (allowed_iff u _).1 ha, ofDigits_decimal ds⟩
      · cases h
  · rintro ⟨ds, h1, h2, rfl⟩
    rw [digits_intDigits u h1]
    simp only
    rw [if_pos ((allowed_iff u _).2 h2), ofDigits_decimal]

theorem blank_iff (c : Char) : intSpace u c = true ↔ Blank u c := by
  unfold intSpace Blank
  simp only [Bool.and_eq_true, Bool.not_eq_true', Bool.and_eq_false_iff, decide_eq_false_iff_not]
  constructor
  · rintro ⟨h1, h2⟩; exact ⟨h1, by omega⟩
  · rintro ⟨h1, h2⟩; exact ⟨h1, by omega⟩

/-- The text inside its blanks. -/
theorem intStrip_parts (l : List Char) : ∃ before after, l = before ++ (intStrip u l ++ after) ∧
    (∀ c ∈ before, Blank u c) ∧ ∀ c ∈ after, Blank u c := by
  refine ⟨l.takeWhile (intSpace u), ((l.dropWhile (intSpace u)).reverse.takeWhile (intSpace u)).reverse, ?_, ?_, ?_⟩
  · unfold intStrip
    rw [← List.reverse_append, List.takeWhile_append_dropWhile, List.reverse_reverse, List.takeWhile_append_dropWhile]
  · intro c hc; exact (blank_iff u c).1 (List.mem_takeWhile_imp hc)
  · intro c hc; exact (blank_iff u c).1 (List.mem_takeWhile_imp (List.mem_reverse.1 hc))

theorem dropWhile_blanks {before l : List Char} (hb : ∀ c ∈ before, Blank u c) (hl : ∀ c ∈ l.head?, ¬ Blank u c) :
    (before ++ l).dropWhile (intSpace u) = l := by
  rw [List.dropWhile_append_of_pos (fun c hc => (blank_iff u c).2 (hb c hc))]
  cases l with
  | nil => rfl
  | cons c l => exact List.dropWhile_cons_of_neg (fun h => hl c rfl ((blank_iff u c).1 h))

theorem intStrip_of {before l after : List Char} (hb : ∀ c ∈ before, Blank u c) (ha : ∀ c ∈ after, Blank u c)
    (hne : l ≠ []) (h1 : ∀ c ∈ l.head?, ¬ Blank u c) (h2 : ∀ c ∈ l.getLast?, ¬ Blank u c) :
    intStrip u (before ++ (l ++ after)) = l := by
  unfold intStrip
  rw [dropWhile_blanks u hb (by cases l with | nil => exact absurd rfl hne | cons c l => exact h1),
    List.reverse_append, dropWhile_blanks u (fun c hc => ha c (List.mem_reverse.1 hc)) (by rw [List.head?_reverse]; exact h2),
    List.reverse_reverse]

theorem digits_last {l : List Char} {ds : List Nat} (h : Digits u l ds) : ∃ c, l.getLast? = some c ∧ (u.digitVal c).isSome := by
  induction h with
  | @last c d h => exact ⟨c, rfl, by rw [h]; rfl⟩
  | @next c d cs ds h t ih =>
    obtain ⟨x, h1, h2⟩ := ih
    exact ⟨x, by rw [List.getLast?_cons, h1]; rfl, h2⟩
  | @grouped c d cs ds h t ih =>
    obtain ⟨x, h1, h2⟩ := ih
    exact ⟨x, by rw [List.getLast?_cons, List.getLast?_cons, h1]; rfl, h2⟩

theorem digit_not_blank {c : Char} (h : (u.digitVal c).isSome) : ¬ Blank u c := by
  rintro ⟨h1, _⟩
  rw [digit_space u h] at h1; cases h1

/-- `int(s)`, exactly. -/
theorem intOfStr_iff (s : String) (n : Int) : intOfStr u s = .ok n ↔ IsNumber u s n := by
  constructor
  · intro h
    obtain ⟨before, after, e, hb, ha⟩ := intStrip_parts u s.toList
    unfold intOfStr at h
    have fin : ∀ (sign l : List Char) (f : Int → Int), intStrip u s.toList = sign ++ l →
        Except.map f (do let a ← natOfChars u l; pure (a : Int)) = .ok n →
        ∃ ds, s.toList = before ++ (sign ++ (l ++ after)) ∧ Digits u l ds ∧
          (∀ most, u.maxDigits = some most → ds.length ≤ most) ∧ n = f (decimal ds) := by
      intro sign l f e2 e3
      cases hn : natOfChars u l with
      | error x => rw [hn] at e3; cases e3
      | ok k =>
        rw [hn] at e3
        have e3 : Except.ok (f (k : Int)) = (Except.ok n : Except Err Int) := e3
        obtain ⟨ds, d1, d2, rfl⟩ := (natOfChars_iff u l k).1 hn
        cases e3
        exact ⟨ds, by rw [← List.append_assoc sign, ← e2]; exact e, d1, d2, rfl⟩
    split at h
    · next l hl =>
      obtain ⟨ds, h1, h2, h3, h4⟩ := fin ['-'] l _ hl h
      exact ⟨before, ['-'], l, after, ds, h1, hb, ha, h2, h3, .inr (.inr ⟨rfl, h4⟩)⟩
    · next l hl =>
      obtain ⟨ds, h1, h2, h3, h4⟩ := fin ['+'] l _ hl h
      exact ⟨before, ['+'], l, after, ds, h1, hb, ha, h2, h3, .inr (.inl ⟨rfl, h4⟩)⟩
    · obtain ⟨ds, h1, h2, h3, h4⟩ := fin [] (intStrip u s.toList) _ rfl h
      exact ⟨before, [], _, after, ds, h1, hb, ha, h2, h3, .inl ⟨rfl, h4⟩⟩
  · rintro ⟨before, sign, digits, after, ds, e, hb, ha, hd, hm, hs⟩
    obtain ⟨last, hl1, hl2⟩ := digits_last u hd
    have hne : digits ≠ [] := by intro h; subst h; cases hl1
    have hnat := (natOfChars_iff u digits (decimal ds)).2 ⟨ds, hd, hm, rfl⟩
    have hlast : ∀ c ∈ (sign ++ digits).getLast?, ¬ Blank u c := by
      intro c hc
      rw [List.getLast?_append, hl1] at hc
      simp only [Option.some_or, Option.mem_def, Option.some.injEq] at hc
      subst hc
      exact digit_not_blank u hl2
    have hstrip : (∀ c ∈ (sign ++ digits).head?, ¬ Blank u c) → intStrip u s.toList = sign ++ digits := by
      intro hh
      rw [e, ← List.append_assoc sign]
      exact intStrip_of u hb ha (by simp [hne]) hh hlast
    unfold intOfStr
    rcases hs with ⟨rfl, rfl⟩ | ⟨rfl, rfl⟩ | ⟨rfl, rfl⟩
    · cases digits with
      | nil => exact absurd rfl hne
      | cons c cs =>
        have hc := digits_head u hd
        rw [hstrip (by intro x hx; cases hx; exact digit_not_blank u hc), List.nil_append]
        split
        · next h => cases h; exact absurd rfl (digit_ne_sign u hc).1
        · next h => cases h; exact absurd rfl (digit_ne_sign u hc).2.1
        · rw [hnat]; rfl
    · rw [hstrip (by intro x hx; cases hx; rintro ⟨h, _⟩; rw [u.plus] at h; cases h)]
      simp only [List.cons_append, List.nil_append]
      rw [hnat]; rfl
    · rw [hstrip (by intro x hx; cases hx; rintro ⟨h, _⟩; rw [u.minus.2.1] at h; cases h)]
      simp only [List.cons_append, List.nil_append]
      rw [hnat]; rfl

theorem intOfStr_error {s : String} {e : Err} (h : intOfStr u s = .error e) : e = .value := by
  have key : ∀ (l : List Char) (f : Int → Int), Except.map f (do let a ← natOfChars u l; pure (a : Int)) = .error e →
      e = .value := by
    intro l f h
    have hn : ∀ x, natOfChars u l = .error x → x = .value := by
      intro x hx
      unfold natOfChars at hx
      split at hx
      · cases hx; rfl
      · split at hx
        · cases hx
        · cases hx; rfl
    cases e1 : natOfChars u l with
    | error x => rw [e1] at h; cases h; exact hn _ e1
    | ok k => rw [e1] at h; cases h
  unfold intOfStr at h
  split at h <;> exact key _ _ h

variable (py : Interp)

/-- **C131**.  A configured text: an integer or long setting accepts exactly the texts that are numbers within its bounds, with that
number as value; all others raise ValueError. -/
theorem C131_integer {key : String} {default min max : Int} {properties : List Property} {st : Setting IntParser}
    (hc : IntegerSetting py key default min max properties = .ok st ∨
      LongSetting py key default min max properties = .ok st) {d : Dict String PyVal} {s : String}
    (h : d.get? key = some (.str s)) (hne : s ≠ "") :
    (∀ n, st.get py d = .ok n ↔ IsNumber py.u s n ∧ min ≤ n ∧ n ≤ max) ∧
    ((∀ n, IsNumber py.u s n → ¬ (min ≤ n ∧ n ≤ max)) → st.get py d = .error .value) := by
  have hst : st = intSettingOf py key default min max properties := by
    rcases hc with hc | hc
    · exact ((integerSetting_iff py ..).1 hc).1
    · exact ((longSetting_iff py ..).1 hc).1
  subst hst
  have e : (intSettingOf py key default min max properties).get py d =
      (intOfStr py.u s >>= fun v => IntParser.boundsCheck ⟨min, max, key, false⟩ v) := by
    rw [C53_text_partial py _ d s h hne]; rfl
  rw [e]
  constructor
  · intro n
    rw [← intOfStr_iff]
    cases hi : intOfStr py.u s with
    | error x => constructor <;> intro h <;> cases h; rename_i h _; cases h
    | ok v =>
      rw [Except.ok_bind]
      unfold IntParser.boundsCheck
      by_cases hb : min ≤ v ∧ v ≤ max
      · rw [if_neg (by simpa using hb)]
        constructor
        · intro h; cases h; exact ⟨rfl, hb⟩
        · rintro ⟨h, _⟩; exact h
      · rw [if_pos (by simpa using hb)]
        constructor
        · intro h; cases h
        · rintro ⟨h, h2⟩; cases h; exact absurd h2 hb
  · intro hno
    cases hi : intOfStr py.u s with
    | error x => rw [intOfStr_error py.u hi]; rfl
    | ok v =>
      rw [Except.ok_bind]
      unfold IntParser.boundsCheck
      rw [if_pos]
      exact hno v ((intOfStr_iff py.u s v).1 hi)

/-- **C131**.  A version setting accepts exactly the texts that are numbers; the version then has this number as its id. -/
theorem C131_version (key : String) (default : Version) (properties : List Property) {d : Dict String PyVal} {s : String}
    (h : d.get? key = some (.str s)) (hne : s ≠ "") :
    (∀ v : Version, (VersionSetting py key default properties).get py d = .ok v ↔ IsNumber py.u s v.id) ∧
    ((∀ n, ¬ IsNumber py.u s n) → (VersionSetting py key default properties).get py d = .error .value) := by
  have e : (VersionSetting py key default properties).get py d =
      (intOfStr py.u s).map fun n => Version.new (Int.xor n Version.MASK) := by
    rw [C53_text_partial py _ d s h hne]; rfl
  rw [e]
  constructor
  · intro v
    rw [← intOfStr_iff]
    cases hi : intOfStr py.u s with
    | error x => constructor <;> intro h <;> cases h
    | ok n =>
      change Except.ok (Version.new (Int.xor n Version.MASK)) = Except.ok v ↔ _
      have : Version.new (Int.xor n Version.MASK) = ⟨n⟩ := version_new_xor n
      rw [this]
      constructor
      · intro h; cases h; rfl
      · intro h; cases h; rfl
  · intro hno
    cases hi : intOfStr py.u s with
    | error x => rw [intOfStr_error py.u hi]; rfl
    | ok v => exact absurd ((intOfStr_iff py.u s v).1 hi) (hno v)

/-- **C131**.  One text, one number. -/
theorem C131_unique {s : String} {m n : Int} (h1 : IsNumber u s m) (h2 : IsNumber u s n) : m = n := by
  rw [← intOfStr_iff] at h1 h2
  rw [h1] at h2; cases h2; rfl

/-! ## Amounts: a number and a unit -/

theorem amount_of_match {s d w : String} {n : Int} (h : matchValue u s = some (d, w))
    (hn : intOfStr u d = .ok n) (hw : ∀ c ∈ w.toList.head?, u.digitVal c = none) :
    ∃ k : Nat, n = k ∧ Amount u s k w := by
  unfold matchValue at h
  simp only [Option.map_eq_some_iff] at h
  obtain ⟨⟨dl, wl⟩, hm, heq⟩ := h
  simp only [Prod.mk.injEq] at heq
  obtain ⟨rfl, rfl⟩ := heq
  rw [String.toList_ofList] at hw
  obtain ⟨h1, h2, h3⟩ := matchFrom_leading u hm hw
  obtain ⟨h4, h5⟩ := matchUnit_some u h3
  have hdig : ∀ c ∈ dl, (u.digitVal c).isSome := by
    intro c hc
    rw [h1] at hc
    have hall : (s.toList.takeWhile fun c => (u.digitVal c).isSome).all (fun c => (u.digitVal c).isSome) = true :=
      List.all_takeWhile
    exact List.all_eq_true.1 hall c hc
  rw [intOfStr_digits u (by rw [String.toList_ofList]; exact h2) (by rw [String.toList_ofList]; exact hdig),
    String.toList_ofList] at hn
  obtain ⟨ds, e1, e2⟩ := intDigits_digits u dl h2 hdig
  unfold natOfChars at hn
  rw [e1] at hn
  simp only at hn
  by_cases ha : allowed u ds.length = true
  · rw [if_pos ha] at hn
    have hn : ((ofDigits ds : Nat) : Int) = n := by
      change Except.ok ((ofDigits ds : Nat) : Int) = Except.ok n at hn
      exact Except.ok.inj hn
    refine ⟨ofDigits ds, hn.symm, dl, (s.toList.dropWhile fun c => (u.digitVal c).isSome).takeWhile u.isSpace,
      ((s.toList.dropWhile fun c => (u.digitVal c).isSome).dropWhile u.isSpace).dropWhile u.isWord, ds,
      ?_, h2, e2, (allowed_iff u _).1 ha, ofDigits_decimal ds, ?_, ?_⟩
    · rw [String.toList_ofList, h5, List.takeWhile_append_dropWhile, List.takeWhile_append_dropWhile, h1,
        List.takeWhile_append_dropWhile]
    · exact fun c hc => List.all_eq_true.1 List.all_takeWhile c hc
    · intro c hc
      have := List.head?_dropWhile_not u.isWord
        ((s.toList.dropWhile fun c => (u.digitVal c).isSome).dropWhile u.isSpace)
      rw [Option.mem_def] at hc
      rw [hc] at this
      simpa using this
  · rw [if_neg ha] at hn; cases hn

theorem match_of_amount {value unit : String} {n : Nat} (h : Amount u value n unit) (hu : unit.toList ≠ [])
    (hl : ∀ c ∈ unit.toList, c.isLower = true) :
    ∃ d, matchValue u value = some (d, unit) ∧ intOfStr u d = .ok (n : Int) := by
  obtain ⟨digits, spaces, rest, ds, h, hne, hd, hmost, hn, hsp, hrest⟩ := h
  have hdig : ∀ c ∈ digits, (u.digitVal c).isSome := by
    intro c hc
    have : u.digitVal c ∈ digits.map u.digitVal := List.mem_map.2 ⟨c, hc, rfl⟩
    rw [hd] at this
    obtain ⟨x, -, hx⟩ := List.mem_map.1 this
    rw [← hx]; rfl
  refine ⟨String.ofList digits, ?_, ?_⟩
  · unfold matchValue
    rw [h]
    have := matchFrom_full u hne hdig hsp hu (fun c hc => (u.lower_word c (hl c hc)).1)
      (fun c hc => (u.lower_word c (hl c (List.mem_of_mem_head? hc))).2) hrest
    unfold leading at this
    rw [this]
    simp
  · rw [intOfStr_digits u (by rw [String.toList_ofList]; exact hne) (by rw [String.toList_ofList]; exact hdig),
      String.toList_ofList]
    obtain ⟨ds', e1, e2⟩ := intDigits_digits u digits hne hdig
    have : ds' = ds := by
      rw [hd] at e2
      exact (List.map_injective_iff.2 (Option.some_injective _) e2).symm
    subst this
    unfold natOfChars
    rw [e1]
    simp only [(allowed_iff u _).2 hmost, if_true, hn, ofDigits_decimal]
    rfl

/-- **C131**.  A text is parsed as a time exactly when, lower-cased, it starts with an amount of a unit of time, and as that amount. -/
theorem C131_time_text (value : String) (v : TimeValue) : TimeValue.parse u value = .ok v ↔
    ∃ n : Nat, v.duration = n ∧ Amount u (u.lower value) n (timeSuffix v.time_unit) := by
  constructor
  · intro h
    unfold TimeValue.parse at h
    split at h
    · simp at h
    · next d w hm =>
      split at h
      · simp at h
      · next n hn =>
        split at h
        · next t ht =>
          simp only [Except.ok.injEq] at h
          subst h
          have hmem := lookup_mem ht
          have hsuf : w = timeSuffix t := by
            simp only [TIME_UNIT_MAPPING, List.mem_cons, Prod.mk.injEq, List.not_mem_nil, or_false] at hmem
            rcases hmem with ⟨rfl, rfl⟩ | ⟨rfl, rfl⟩ | ⟨rfl, rfl⟩ | ⟨rfl, rfl⟩ | ⟨rfl, rfl⟩ | ⟨rfl, rfl⟩ | ⟨rfl, rfl⟩ <;> rfl
          subst hsuf
          obtain ⟨k, rfl, hs⟩ := amount_of_match u hm hn (by
            intro c hc
            refine (u.lower_word c ?_).2
            have hc' := List.mem_of_mem_head? hc
            revert c
            cases t <;> decide)
          exact ⟨k, rfl, hs⟩
        · simp at h
  · rintro ⟨n, hv, h⟩
    obtain ⟨d, t⟩ := v
    simp only at hv h
    subst hv
    obtain ⟨x, h1, h2⟩ := match_of_amount u h (by cases t <;> decide) (by cases t <;> decide)
    unfold TimeValue.parse
    rw [h1]
    simp only [h2]
    have hl : lookup TIME_UNIT_MAPPING (timeSuffix t) = some t := by cases t <;> decide
    rw [hl]

/-- **C131**.  The same for sizes; the unit may lack its final `b`, except that a mere number is no size. -/
theorem C131_size_text (value : String) (v : ByteSizeValue) : ByteSizeValue.parse u value = .ok v ↔
    ∃ (n : Nat) (unit : String), v.size = n ∧ Amount u (u.lower value) n unit ∧
      (unit = byteSuffix v.unit ∨ (unit ≠ "" ∧ unit ++ "b" = byteSuffix v.unit)) := by
  constructor
  · intro h
    unfold ByteSizeValue.parse at h
    split at h
    · simp at h
    · next d w hm =>
      split at h
      · simp at h
      · next n hn =>
        split at h
        · next t ht =>
          simp only [Except.ok.injEq] at h
          subst h
          have hmem := lookup_mem ht
          have hsuf : ByteSizeValue.withB w = byteSuffix t := by
            simp only [BYTE_SIZE_UNIT_MAPPING, List.mem_cons, Prod.mk.injEq, List.not_mem_nil, or_false] at hmem
            rcases hmem with ⟨h, rfl⟩ | ⟨h, rfl⟩ | ⟨h, rfl⟩ | ⟨h, rfl⟩ | ⟨h, rfl⟩ | ⟨h, rfl⟩ <;> exact h
          have hw0 : w ≠ "" := by
            rintro rfl
            unfold matchValue at hm
            simp only [Option.map_eq_some_iff] at hm
            obtain ⟨⟨dl, wl⟩, hm, heq⟩ := hm
            simp only [Prod.mk.injEq] at heq
            obtain ⟨k, -, -, -, h4⟩ := matchFrom_some u hm
            have hwl : wl = [] := by
              have := congrArg String.toList heq.2
              simpa using this
            rw [hwl] at h4
            unfold matchUnit at h4
            simp only at h4
            split at h4
            · cases h4
            · next hc => exact hc (Option.some.inj h4)
          have hor : w = byteSuffix t ∨ (w ≠ "" ∧ w ++ "b" = byteSuffix t) := by
            unfold ByteSizeValue.withB at hsuf
            split at hsuf
            · exact .inl hsuf
            · exact .inr ⟨hw0, hsuf⟩
          obtain ⟨k, rfl, hs⟩ := amount_of_match u hm hn (by
            intro c hc
            refine (u.lower_word c ?_).2
            have hc' := List.mem_of_mem_head? hc
            have hlow : ∀ c ∈ (byteSuffix t).toList, c.isLower = true := by cases t <;> decide
            rcases hor with rfl | ⟨-, e⟩
            · exact hlow c hc'
            · apply hlow; rw [← e, String.toList_append]; exact List.mem_append_left _ hc')
          exact ⟨k, w, rfl, hs, hor⟩
        · simp at h
  · rintro ⟨n, unit, hv, ⟨digits, spaces, rest, ds, h, hne, hd, hmost, hn, hsp, hrest⟩, hunit⟩
    obtain ⟨d, t⟩ := v
    simp only at hv hunit
    subst hv
    have hlow : ∀ c ∈ (byteSuffix t).toList, c.isLower = true := by cases t <;> decide
    have hu : unit.toList ≠ [] := by
      rcases hunit with rfl | ⟨h0, -⟩
      · cases t <;> decide
      · intro e; exact h0 (by rw [← String.ofList_toList (s := unit), e])
    have hl : ∀ c ∈ unit.toList, c.isLower = true := by
      rcases hunit with rfl | ⟨-, e⟩
      · exact hlow
      · intro c hc; apply hlow; rw [← e, String.toList_append]; exact List.mem_append_left _ hc
    obtain ⟨x, h1, h2⟩ := match_of_amount u (n := n) (unit := unit)
      ⟨digits, spaces, rest, ds, h, hne, hd, hmost, hn, hsp, hrest⟩ hu hl
    have hb : ByteSizeValue.withB unit = byteSuffix t := by
      unfold ByteSizeValue.withB
      rcases hunit with rfl | ⟨h0, e⟩
      · cases t <;> decide
      · rw [if_neg, e]
        intro hlast
        have hu' : unit = String.ofList ((byteSuffix t).toList.dropLast) := by
          rw [← e, String.toList_append]
          simp
        rw [hu', String.toList_ofList] at hlast
        revert hlast
        cases t <;> decide
    unfold ByteSizeValue.parse
    rw [h1]
    simp only [h2, hb]
    have hl : lookup BYTE_SIZE_UNIT_MAPPING (byteSuffix t) = some t := by cases t <;> decide
    rw [hl]

/-- **C131**.  A configured text: a time setting accepts exactly the texts that start with an amount of time within its bounds. -/
theorem C131_time {key : String} {default min max : TimeValue} {properties : List Property} {st : Setting TimeParser}
    (hc : TimeValueSetting py key default min max properties = .ok st) {d : Dict String PyVal} {s : String}
    (h : d.get? key = some (.str s)) (hne : s ≠ "") (v : TimeValue) :
    st.get py d = .ok v ↔
      (∃ n : Nat, v.duration = n ∧ Amount py.u (py.u.lower s) n (timeSuffix v.time_unit)) ∧ TimeWithin min max v := by
  obtain ⟨rfl, h1, h2, -⟩ := (timeSetting_iff py ..).1 hc
  rw [C53_text_partial py _ d s h hne, ← C131_time_text]
  change (TimeValue.parse py.u s >>= fun v => TimeParser.boundsCheck ⟨min, max, key, false⟩ v) = _ ↔ _
  cases hp : TimeValue.parse py.u s with
  | error e => rw [Except.error_bind]; simp
  | ok x =>
    rw [Except.ok_bind]
    have := time_boundsCheck_iff (p := ⟨min, max, key, false⟩) h1 h2 x v
    rw [this]
    constructor
    · rintro ⟨rfl, hw⟩; exact ⟨rfl, hw⟩
    · rintro ⟨e, hw⟩; cases e; exact ⟨rfl, hw⟩

/-- **C131**.  The same for a setting of a size. -/
theorem C131_size {key : String} {default min max : ByteSizeValue} {properties : List Property} {st : Setting SizeParser}
    (hc : ByteSizeValueSetting py key default min max properties = .ok st) {d : Dict String PyVal} {s : String}
    (h : d.get? key = some (.str s)) (hne : s ≠ "") (v : ByteSizeValue) :
    st.get py d = .ok v ↔
      (∃ (n : Nat) (unit : String), v.size = n ∧ Amount py.u (py.u.lower s) n unit ∧
        (unit = byteSuffix v.unit ∨ (unit ≠ "" ∧ unit ++ "b" = byteSuffix v.unit))) ∧ SizeWithin min max v := by
  obtain ⟨rfl, h1, h2, -⟩ := (sizeSetting_iff py ..).1 hc
  rw [C53_text_partial py _ d s h hne, ← C131_size_text]
  change (ByteSizeValue.parse py.u s >>= fun v => SizeParser.boundsCheck ⟨min, max, key⟩ v) = _ ↔ _
  cases hp : ByteSizeValue.parse py.u s with
  | error e => rw [Except.error_bind]; simp
  | ok x =>
    rw [Except.ok_bind]
    have := size_boundsCheck_iff (p := ⟨min, max, key⟩) h1 h2 x v
    rw [this]
    constructor
    · rintro ⟨rfl, hw⟩; exact ⟨rfl, hw⟩
    · rintro ⟨e, hw⟩; cases e; exact ⟨rfl, hw⟩

theorem time_parse_error {s : String} {e : Err} (h : TimeValue.parse u s = .error e) : e = .value := by
  unfold TimeValue.parse at h
  split at h
  · cases h; rfl
  · split at h
    · next hx => cases h; exact intOfStr_error u hx
    · split at h
      · cases h
      · cases h; rfl

theorem size_parse_error {s : String} {e : Err} (h : ByteSizeValue.parse u s = .error e) : e = .value := by
  unfold ByteSizeValue.parse at h
  split at h
  · cases h; rfl
  · split at h
    · next hx => cases h; exact intOfStr_error u hx
    · split at h
      · cases h
      · cases h; rfl

/-- **C131**.  All other texts raise ValueError. -/
theorem C131_refused (key : String) (properties : List Property) {d : Dict String PyVal} {s : String}
    (h : d.get? key = some (.str s)) (hne : s ≠ "") :
    (∀ {default min max : TimeValue} {st : Setting TimeParser}, TimeValueSetting py key default min max properties = .ok st →
      (∀ v, st.get py d ≠ .ok v) → st.get py d = .error .value) ∧
    (∀ {default min max : ByteSizeValue} {st : Setting SizeParser}, ByteSizeValueSetting py key default min max properties = .ok st →
      (∀ v, st.get py d ≠ .ok v) → st.get py d = .error .value) := by
  constructor
  · intro default min max st hc
    obtain ⟨rfl, -⟩ := (timeSetting_iff py ..).1 hc
    rw [C53_text_partial py _ d s h hne]
    change (∀ v, (TimeValue.parse py.u s >>= fun v => TimeParser.boundsCheck ⟨min, max, key, false⟩ v) ≠ _) →
      (TimeValue.parse py.u s >>= fun v => TimeParser.boundsCheck ⟨min, max, key, false⟩ v) = _
    cases hp : TimeValue.parse py.u s with
    | error e => intro _; rw [time_parse_error py.u hp]; rfl
    | ok x =>
      rw [Except.ok_bind]
      unfold TimeParser.boundsCheck
      split
      · intro _; rfl
      · split
        · intro _; rfl
        · intro h; exact absurd rfl (h x)
  · intro default min max st hc
    obtain ⟨rfl, -⟩ := (sizeSetting_iff py ..).1 hc
    rw [C53_text_partial py _ d s h hne]
    change (∀ v, (ByteSizeValue.parse py.u s >>= fun v => SizeParser.boundsCheck ⟨min, max, key⟩ v) ≠ _) →
      (ByteSizeValue.parse py.u s >>= fun v => SizeParser.boundsCheck ⟨min, max, key⟩ v) = _
    cases hp : ByteSizeValue.parse py.u s with
    | error e => intro _; rw [size_parse_error py.u hp]; rfl
    | ok x =>
      rw [Except.ok_bind]
      unfold SizeParser.boundsCheck
      split
      · intro _; rfl
      · split
        · intro _; rfl
        · intro h; exact absurd rfl (h x)

/-! ## Concrete cases -/

/-- Blanks, a sign, a group: this is minus 1000. -/
theorem sampleNumber : IsNumber asciiUnicode " -1_000\n" (-1000) := by
  refine ⟨[' '], ['-'], ['1', '_', '0', '0', '0'], ['\n'], [1, 0, 0, 0], by decide +kernel, ?_, ?_, ?_, ?_, .inr (.inr ⟨rfl, rfl⟩)⟩
  · intro c hc; rw [List.mem_singleton.1 hc]; constructor <;> decide +kernel
  · intro c hc; rw [List.mem_singleton.1 hc]; constructor <;> decide +kernel
  · exact .grouped (by decide +kernel) (.next (by decide +kernel) (.next (by decide +kernel) (.last (by decide +kernel))))
  · intro most hm; cases hm; decide

/-- Two underscores, a space inside, a separator around: no numbers. -/
example : (∀ n, ¬ IsNumber asciiUnicode "1__0" n) ∧ (∀ n, ¬ IsNumber asciiUnicode "1 0" n) ∧ (∀ n, ¬ IsNumber asciiUnicode "+-1" n) ∧
    (∀ n, ¬ IsNumber asciiUnicode (String.ofList [Char.ofNat 0x1C, '5']) n) ∧ (∀ n, ¬ IsNumber asciiUnicode "1.0" n) := by
  refine ⟨?_, ?_, ?_, ?_, ?_⟩ <;> intro n h <;> rw [← intOfStr_iff] at h
  · exact absurd (show intOfStr asciiUnicode "1__0" = .error .value by decide +kernel) (by rw [h]; simp)
  · exact absurd (show intOfStr asciiUnicode "1 0" = .error .value by decide +kernel) (by rw [h]; simp)
  · exact absurd (show intOfStr asciiUnicode "+-1" = .error .value by decide +kernel) (by rw [h]; simp)
  · exact absurd (show intOfStr asciiUnicode (String.ofList [Char.ofNat 0x1C, '5']) = .error .value by decide +kernel) (by rw [h]; simp)
  · exact absurd (show intOfStr asciiUnicode "1.0" = .error .value by decide +kernel) (by rw [h]; simp)

/-- The same text, configured for a setting that takes -9999 to 9, and for one that takes 0 to 9. -/
example := ((C131_integer sampleInterp (key := "n") (default := 5) (min := -9999) (max := 9) (properties := []) (.inl rfl)
    (d := [("n", .str " -1_000\n")]) rfl (by decide)).1 (-1000)).2 ⟨sampleNumber, by decide, by decide⟩

example := (C131_integer sampleInterp (key := "n") (default := 5) (min := 0) (max := 9) (properties := []) (.inr rfl)
    (d := [("n", .str " -1_000\n")]) rfl (by decide)).2
  (fun n h => by rw [C131_unique _ h sampleNumber]; decide)

example := ((C131_version sampleInterp "n" ⟨0⟩ [] (d := [("n", .str " -1_000\n")]) rfl (by decide)).1 ⟨-1000⟩).2 sampleNumber

/-- Ninety microseconds. -/
theorem sampleAmount : Amount asciiUnicode (asciiUnicode.lower "90 Micros!") 90 "micros" :=
  ⟨['9', '0'], [' '], ['!'], [9, 0], by decide +kernel, by decide, by decide +kernel, by intro most hm; cases hm; decide, by decide,
    by decide +kernel, by decide +kernel⟩

example := (C131_time_text asciiUnicode "90 Micros!" ⟨90, .MICROSECONDS⟩).2 ⟨90, rfl, sampleAmount⟩

example := (C131_time sampleInterp (key := "t") (default := ⟨1, .DAYS⟩) (min := ⟨1, .NANOSECONDS⟩) (max := ⟨3, .DAYS⟩)
  (properties := []) rfl (d := [("t", .str "90 Micros!")]) rfl (by decide) ⟨90, .MICROSECONDS⟩).2
  ⟨⟨90, rfl, sampleAmount⟩, by unfold TimeWithin; decide⟩

theorem sampleSizeAmount : Amount asciiUnicode (asciiUnicode.lower "12K") 12 "k" :=
  ⟨['1', '2'], [], [], [1, 2], by decide +kernel, by decide, by decide +kernel, by intro most hm; cases hm; decide, by decide,
    by decide +kernel, by decide +kernel⟩

example := (C131_size_text asciiUnicode "12K" ⟨12, .KB⟩).2 ⟨12, "k", rfl, sampleSizeAmount, .inr (by decide +kernel)⟩

example := (C131_size sampleInterp (key := "t") (default := ⟨1, .KB⟩) (min := ⟨1, .BYTES⟩) (max := ⟨-1, .KB⟩)
  (properties := []) rfl (d := [("t", .str "12K")]) rfl (by decide) ⟨12, .KB⟩).2
  ⟨⟨12, "k", rfl, sampleSizeAmount, .inr (by decide +kernel)⟩, by unfold SizeWithin; decide⟩

/-- A mere number is neither a time nor a size. -/
example := (C131_refused sampleInterp "t" [] (d := [("t", .str "10")]) rfl (by decide)).1
    (default := ⟨1, .DAYS⟩) (min := ⟨1, .NANOSECONDS⟩) (max := ⟨3, .DAYS⟩) rfl (by
      intro v h
      have h1 := (C131_time_text sampleInterp.u "10" v).2 ((C131_time sampleInterp (key := "t")
        (default := ⟨1, .DAYS⟩) (min := ⟨1, .NANOSECONDS⟩) (max := ⟨3, .DAYS⟩) (properties := []) rfl
        (d := [("t", .str "10")]) rfl (by decide) v).1 h).1
      have h2 : TimeValue.parse sampleInterp.u "10" = .error .value := by decide +kernel
      rw [h1] at h2; cases h2)

end Verif
