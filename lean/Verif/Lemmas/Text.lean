import Mathlib.Tactic.ByContra
import Mathlib.Tactic.Conv
import Mathlib.Data.List.TakeWhile
import Mathlib.Order.Basic
import Verif.Py.Text
import Verif.Model.TimeValue
/-! Lemmas about `int(s)`, `str(i)` and the value regular expression. -/

namespace Verif.Py

variable (u : Unicode)

/-- The digit a character stands for in `Nat.toDigits 10`. -/
def asciiDigit (c : Char) : Nat := c.toNat - '0'.toNat

theorem digit_not_underscore {c : Char} (h : c.isDigit = true) : c ≠ '_' := by
  rintro rfl; revert h; decide

theorem digit_space {c : Char} (h : (u.digitVal c).isSome) : u.isSpace c = false :=
  u.space_word c (u.digit_word c h)

theorem intDigits_ascii : ∀ (l : List Char), l ≠ [] → (∀ c ∈ l, c.isDigit = true) →
    intDigits u l = some (l.map asciiDigit)
  | [], h, _ => absurd rfl h
  | [c], _, h => by
    unfold intDigits
    rw [u.digit_ascii c (h c (by simp))]
    rfl
  | c :: c' :: cs, _, h => by
    have ih := intDigits_ascii (c' :: cs) (by simp) (fun x hx => h x (List.mem_cons_of_mem _ hx))
    unfold intDigits
    rw [u.digit_ascii c (h c (by simp))]
    simp only
    rw [if_neg (digit_not_underscore (h c' (by simp))), ih]
    rfl

theorem ofDigits_ascii (l : List Char) : ofDigits (l.map asciiDigit) = Nat.ofDigitChars 10 l 0 := by
  unfold ofDigits
  rw [Nat.ofDigitChars_eq_foldl, List.foldl_map]
  rfl

theorem toDigits_isDigit (n : Nat) : ∀ c ∈ Nat.toDigits 10 n, c.isDigit = true :=
  fun _ hc => Nat.isDigit_of_mem_toDigits (by decide) (by decide) hc

theorem natOfChars_toDigits {n : Nat} (h : allowed u (Nat.toDigits 10 n).length = true) :
    natOfChars u (Nat.toDigits 10 n) = .ok n := by
  unfold natOfChars
  rw [intDigits_ascii u _ Nat.toDigits_ne_nil (toDigits_isDigit n)]
  simp only [List.length_map, h, if_true]
  rw [ofDigits_ascii, Nat.ofDigitChars_ten_toDigits]

theorem intStrip_id {l : List Char} (h : ∀ c ∈ l, u.isSpace c = false) : intStrip u l = l := by
  have key : ∀ m : List Char, (∀ c ∈ m, u.isSpace c = false) → m.dropWhile (intSpace u) = m := by
    intro m hm
    cases m with
    | nil => rfl
    | cons c cs => rw [List.dropWhile_cons_of_neg]; simp [intSpace, hm c (by simp)]
  unfold intStrip
  rw [key l h, key l.reverse (fun c hc => h c (List.mem_reverse.1 hc)), List.reverse_reverse]

theorem digit_ne_sign {c : Char} (h : (u.digitVal c).isSome) : c ≠ '-' ∧ c ≠ '+' ∧ c ≠ '_' := by
  refine ⟨?_, ?_, ?_⟩ <;> rintro rfl <;> simp [u.minus] at h

/-- `int(s)` of decimal digits. -/
theorem intOfStr_digits {s : String} (hne : s.toList ≠ []) (h : ∀ c ∈ s.toList, (u.digitVal c).isSome) :
    intOfStr u s = (natOfChars u s.toList).map fun n => (n : Int) := by
  unfold intOfStr
  rw [intStrip_id u (fun c hc => digit_space u (h c hc))]
  cases hs : s.toList with
  | nil => exact absurd hs hne
  | cons c cs =>
    obtain ⟨h1, h2, _⟩ := digit_ne_sign u (h c (by rw [hs]; simp))
    split
    · next h => simp only [List.cons.injEq] at h; exact absurd h.1 h1
    · next h => simp only [List.cons.injEq] at h; exact absurd h.1 h2
    · rfl

/-- Decimal digits without underscores: every one counts. -/
theorem intDigits_digits : ∀ (l : List Char), l ≠ [] → (∀ c ∈ l, (u.digitVal c).isSome) →
    ∃ ds, intDigits u l = some ds ∧ l.map u.digitVal = ds.map some
  | [], h, _ => absurd rfl h
  | [c], _, h => by
    obtain ⟨d, hd⟩ := Option.isSome_iff_exists.1 (h c (by simp))
    exact ⟨[d], by unfold intDigits; rw [hd], by simp [hd]⟩
  | c :: c' :: cs, _, h => by
    obtain ⟨ds, e1, e2⟩ := intDigits_digits (c' :: cs) (by simp) (fun x hx => h x (List.mem_cons_of_mem _ hx))
    obtain ⟨d, hd⟩ := Option.isSome_iff_exists.1 (h c (by simp))
    have hu := (digit_ne_sign u (h c' (by simp))).2.2
    refine ⟨d :: ds, ?_, by simpa [hd] using e2⟩
    unfold intDigits
    rw [hd]
    simp only
    rw [if_neg hu, e1]
    rfl

theorem natOfChars_digits {l : List Char} {n : Nat} (hne : l ≠ []) (h : ∀ c ∈ l, (u.digitVal c).isSome)
    (hn : natOfChars u l = .ok n) : ∃ ds, l.map u.digitVal = ds.map some ∧ n = ofDigits ds := by
  obtain ⟨ds, e1, e2⟩ := intDigits_digits u l hne h
  unfold natOfChars at hn
  rw [e1] at hn
  simp only at hn
  split at hn
  · simp only [Except.ok.injEq] at hn; exact ⟨ds, e2, hn.symm⟩
  · simp at hn

theorem toString_nat_toList (n : Nat) : (toString n).toList = Nat.toDigits 10 n := by
  rw [Nat.toString_eq_ofList_toDigits, String.toList_ofList]

theorem toString_int_nat (n : Nat) : toString (n : Int) = toString n := rfl

theorem toString_int_neg (n : Nat) : toString (Int.negSucc n) = "-" ++ toString (n + 1) := rfl

/-- `int(str(i)) == i`. -/
theorem intOfStr_strInt {i : Int} {s : String} (h : strInt u i = .ok s) : intOfStr u s = .ok i := by
  unfold strInt at h
  split at h
  · next ha =>
    simp only [Except.ok.injEq] at h
    subst h
    cases i with
    | ofNat n =>
      have hl : (toString (Int.ofNat n)).toList = Nat.toDigits 10 n := toString_nat_toList n
      rw [intOfStr_digits u (by rw [hl]; exact Nat.toDigits_ne_nil)]
      · rw [hl, natOfChars_toDigits u (by simpa using ha)]; rfl
      · intro c hc
        rw [hl] at hc
        rw [u.digit_ascii c (toDigits_isDigit n c hc)]; rfl
    | negSucc n =>
      have hl : (toString (Int.negSucc n)).toList = '-' :: Nat.toDigits 10 (n + 1) := by
        rw [toString_int_neg, String.toList_append, toString_nat_toList]; rfl
      unfold intOfStr
      rw [intStrip_id u]
      · rw [hl]
        simp only
        rw [natOfChars_toDigits u (by simpa using ha)]
        rfl
      · intro c hc
        rw [hl] at hc
        rcases List.mem_cons.1 hc with rfl | hc
        · exact u.minus.2.1
        · exact digit_space u (by rw [u.digit_ascii c (toDigits_isDigit _ c hc)]; rfl)
  · simp at h

/-- Numbers of at most 19 digits (all 64-bit numbers) always have a text form. -/
theorem strInt_ok {i : Int} (h : i.natAbs < 10 ^ 640) : strInt u i = .ok (toString i) := by
  unfold strInt
  rw [if_pos]
  unfold allowed
  cases hm : u.maxDigits with
  | none => rfl
  | some m =>
    have h1 := u.maxDigits_ge m hm
    have h2 := (Nat.length_toDigits_le_iff (n := i.natAbs) (k := 640) (by decide : 1 < 10) (by decide)).2 h
    simp; omega

theorem strInt_eq {i : Int} {s : String} (h : strInt u i = .ok s) : s = toString i := by
  unfold strInt at h
  split at h
  · simpa using h.symm
  · simp at h

/-! ## The regular expression -/

theorem matchUnit_some {l w : List Char} (h : matchUnit u l = some w) :
    w ≠ [] ∧ w = (l.dropWhile u.isSpace).takeWhile u.isWord := by
  unfold matchUnit at h
  simp only at h
  split at h
  · simp at h
  · next hw => simp only [Option.some.injEq] at h; subst h; exact ⟨hw, rfl⟩

theorem matchFrom_some {l d w : List Char} : ∀ {n : Nat}, matchFrom u l n = some (d, w) →
    ∃ k, 1 ≤ k ∧ k ≤ n ∧ d = l.take k ∧ matchUnit u (l.drop k) = some w
  | 0, h => by simp [matchFrom] at h
  | n + 1, h => by
    unfold matchFrom at h
    split at h
    · next w' hw =>
      simp only [Option.some.injEq, Prod.mk.injEq] at h
      obtain ⟨rfl, rfl⟩ := h
      exact ⟨n + 1, by omega, le_refl _, rfl, hw⟩
    · obtain ⟨k, h1, h2, h3, h4⟩ := matchFrom_some h
      exact ⟨k, h1, by omega, h3, h4⟩

/-- The number of leading digits. -/
def leading (l : List Char) : Nat := (l.takeWhile fun c => (u.digitVal c).isSome).length

theorem takeWhile_take {α : Type} {p : α → Bool} {l : List α} {k : Nat} (h : k ≤ (l.takeWhile p).length) :
    ∀ c ∈ l.take k, p c = true := by
  intro c hc
  have : l.take k = (l.takeWhile p).take k := by
    conv_lhs => rw [← List.takeWhile_append_dropWhile (p := p) (l := l)]
    rw [List.take_append_of_le_length h]
  rw [this] at hc
  have hall : (l.takeWhile p).all p = true := List.all_takeWhile
  exact List.all_eq_true.1 hall c (List.mem_of_mem_take hc)

/-- A match whose unit does not start with a digit takes all leading digits. -/
theorem matchFrom_leading {l d w : List Char} (h : matchFrom u l (leading u l) = some (d, w))
    (hw : ∀ c ∈ w.head?, u.digitVal c = none) :
    d = l.takeWhile (fun c => (u.digitVal c).isSome) ∧ d ≠ [] ∧
      matchUnit u (l.dropWhile fun c => (u.digitVal c).isSome) = some w := by
  obtain ⟨k, h1, h2, h3, h4⟩ := matchFrom_some u h
  have hsplit := List.takeWhile_append_dropWhile (p := fun c => (u.digitVal c).isSome) (l := l)
  have hk : k = leading u l := by
    by_contra hne
    have hlt : k < leading u l := by omega
    have hkl : k < l.length := lt_of_lt_of_le hlt (List.takeWhile_sublist _).length_le
    have hd : (u.digitVal l[k]).isSome := by
      have := takeWhile_take (p := fun c => (u.digitVal c).isSome) (l := l) (k := k + 1) hlt l[k]
      exact this (by rw [List.mem_take_iff_getElem]; exact ⟨k, by omega, rfl⟩)
    obtain ⟨_, e⟩ := matchUnit_some u h4
    rw [List.drop_eq_getElem_cons hkl] at e
    rw [List.dropWhile_cons_of_neg (by simp [digit_space u hd]),
      List.takeWhile_cons_of_pos (u.digit_word _ hd)] at e
    have := hw l[k] (by rw [e]; rfl)
    rw [this] at hd; simp at hd
  subst hk
  have ht : l.take (leading u l) = l.takeWhile fun c => (u.digitVal c).isSome := by
    generalize hn : leading u l = n
    conv_lhs => rw [← hsplit]
    exact List.take_left' (by rw [← hn]; rfl)
  have hdr : l.drop (leading u l) = l.dropWhile fun c => (u.digitVal c).isSome := by
    generalize hn : leading u l = n
    conv_lhs => rw [← hsplit]
    exact List.drop_left' (by rw [← hn]; rfl)
  refine ⟨h3.trans ht, ?_, hdr ▸ h4⟩
  rintro rfl
  have : (l.take (leading u l)).length = 0 := by rw [← h3]; rfl
  rw [ht] at this
  unfold leading at h1
  omega

/-- Digits followed by a word: the regular expression matches them. -/
theorem matchFrom_digits {ds w : List Char} (hds : ds ≠ []) (hd : ∀ c ∈ ds, (u.digitVal c).isSome)
    (hw : w ≠ []) (hword : ∀ c ∈ w, u.isWord c = true) (hfirst : ∀ c ∈ w.head?, u.digitVal c = none) :
    matchFrom u (ds ++ w) (leading u (ds ++ w)) = some (ds, w) := by
  have hlead : leading u (ds ++ w) = ds.length := by
    unfold leading
    rw [List.takeWhile_append_of_pos hd]
    cases w with
    | nil => exact absurd rfl hw
    | cons c cs => rw [List.takeWhile_cons_of_neg (by simp [hfirst c rfl])]; simp
  rw [hlead]
  obtain ⟨n, hn⟩ : ∃ n, ds.length = n + 1 := ⟨ds.length - 1, by
    have := List.length_pos_iff.2 hds; omega⟩
  have hunit : matchUnit u w = some w := by
    unfold matchUnit
    have h1 : w.dropWhile u.isSpace = w := by
      cases w with
      | nil => rfl
      | cons c cs => rw [List.dropWhile_cons_of_neg]; simp [u.space_word c (hword c (by simp))]
    rw [h1, List.takeWhile_eq_self_iff.2 hword]
    simp [hw]
  rw [hn]
  unfold matchFrom
  rw [← hn, List.drop_left' rfl, hunit, List.take_left' rfl]

theorem takeWhile_all {α : Type} {p : α → Bool} {l r : List α} (hl : ∀ c ∈ l, p c = true)
    (hr : ∀ c ∈ r.head?, p c = false) : (l ++ r).takeWhile p = l ∧ (l ++ r).dropWhile p = r := by
  rw [List.takeWhile_append_of_pos hl, List.dropWhile_append_of_pos hl]
  cases r with
  | nil => simp
  | cons c cs =>
    have := hr c rfl
    rw [List.takeWhile_cons_of_neg (by simp [this]), List.dropWhile_cons_of_neg (by simp [this])]
    simp

/-- Digits, spaces, a word and no more word characters: the regular expression matches the digits and
the word. -/
theorem matchFrom_full {ds sp w rest : List Char} (hds : ds ≠ []) (hd : ∀ c ∈ ds, (u.digitVal c).isSome)
    (hsp : ∀ c ∈ sp, u.isSpace c = true) (hw : w ≠ []) (hword : ∀ c ∈ w, u.isWord c = true)
    (hfirst : ∀ c ∈ w.head?, u.digitVal c = none) (hrest : ∀ c ∈ rest.head?, u.isWord c = false) :
    matchFrom u (ds ++ (sp ++ (w ++ rest))) (leading u (ds ++ (sp ++ (w ++ rest)))) = some (ds, w) := by
  obtain ⟨wc, ws, rfl⟩ := List.exists_cons_of_ne_nil hw
  have hspace : ∀ c ∈ sp, (u.digitVal c).isSome = false := by
    intro c hc
    cases hv : (u.digitVal c).isSome with
    | false => rfl
    | true => have := digit_space u hv; rw [hsp c hc] at this; exact absurd this (by simp)
  have hlead : leading u (ds ++ (sp ++ (wc :: ws ++ rest))) = ds.length := by
    unfold leading
    rw [(takeWhile_all (p := fun c => (u.digitVal c).isSome) hd ?_).1]
    intro c hc
    cases sp with
    | nil => simp only [List.nil_append, List.cons_append, List.head?_cons, Option.mem_def, Option.some.injEq] at hc
             subst hc; simp [hfirst wc rfl]
    | cons s ss =>
      simp only [List.cons_append, List.head?_cons, Option.mem_def, Option.some.injEq] at hc
      subst hc; exact hspace s (by simp)
  rw [hlead]
  obtain ⟨n, hn⟩ : ∃ n, ds.length = n + 1 := ⟨ds.length - 1, by
    have := List.length_pos_iff.2 hds; omega⟩
  have hunit : matchUnit u (sp ++ (wc :: ws ++ rest)) = some (wc :: ws) := by
    unfold matchUnit
    have h1 : (sp ++ (wc :: ws ++ rest)).dropWhile u.isSpace = wc :: ws ++ rest := by
      apply (takeWhile_all hsp ?_).2
      intro c hc
      simp only [List.cons_append, List.head?_cons, Option.mem_def, Option.some.injEq] at hc
      subst hc
      exact u.space_word _ (hword _ (by simp))
    have h2 : (wc :: ws ++ rest).takeWhile u.isWord = wc :: ws := (takeWhile_all hword hrest).1
    rw [h1, h2]
    simp
  rw [hn]
  unfold matchFrom
  rw [← hn, List.drop_left' rfl, hunit, List.take_left' rfl]

end Verif.Py
