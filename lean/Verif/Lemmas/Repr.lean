import Verif.Model.Display
/-!
# Lemmas: `repr` texts can be read back

`Delimited f`: from a text that starts with `f a`, `a` and the rest of the text are determined.
-/

namespace Verif
open Py

/-- From a text that starts with `f a`, `a` and what follows are determined. -/
def Delimited {α : Type} (f : α → List Char) : Prop :=
  ∀ a b x y, f a ++ x = f b ++ y → a = b ∧ x = y

theorem Delimited.inj {α : Type} {f : α → List Char} (h : Delimited f) {a b : α} (e : f a = f b) : a = b :=
  (h a b [] [] (by rw [e])).1

theorem hexDigit_inj {m n : Nat} (h : hexDigit m = hexDigit n) : m % 16 = n % 16 := by
  have key : ∀ a < 16, ∀ b < 16, (Nat.toDigits 16 a).headD '0' = (Nat.toDigits 16 b).headD '0' → a = b := by
    decide +kernel
  exact key _ (Nat.mod_lt _ (by decide)) _ (Nat.mod_lt _ (by decide)) h

theorem hexDigits_length : ∀ (w n : Nat), (hexDigits n w).length = w
  | 0, _ => rfl
  | w + 1, n => by rw [hexDigits, List.length_append, hexDigits_length w]; rfl

theorem hexDigits_inj : ∀ (w : Nat) {m n : Nat}, m < 16 ^ w → n < 16 ^ w → hexDigits m w = hexDigits n w → m = n
  | 0, m, n, hm, hn, _ => by simp at hm hn; omega
  | w + 1, m, n, hm, hn, h => by
    rw [hexDigits, hexDigits] at h
    obtain ⟨h1, h2⟩ := List.append_inj h (by rw [hexDigits_length, hexDigits_length])
    rw [Nat.pow_succ] at hm hn
    have e1 := hexDigits_inj w (Nat.div_lt_of_lt_mul (by omega)) (Nat.div_lt_of_lt_mul (by omega)) h1
    have e2 := hexDigit_inj (List.cons.inj h2).1
    omega

theorem hexDigits_cancel {w m n : Nat} {x y : List Char} (hm : m < 16 ^ w) (hn : n < 16 ^ w)
    (h : hexDigits m w ++ x = hexDigits n w ++ y) : m = n ∧ x = y := by
  obtain ⟨h1, h2⟩ := List.append_inj h (by rw [hexDigits_length, hexDigits_length])
  exact ⟨hexDigits_inj w hm hn h1, h2⟩

theorem char_toNat_inj {c d : Char} (h : c.toNat = d.toNat) : c = d := by
  apply Char.ext
  exact UInt32.toNat_inj.1 h

theorem char_toNat_lt (c : Char) : c.toNat < 16 ^ 8 := by
  have := c.val.toNat_lt
  exact lt_of_lt_of_le this (by decide)

/-- The forms `reprChar` takes: a character as it is, a backslash and a letter that stands for the
character, or a backslash, a letter for the width, and hexadecimal digits. -/
theorem reprChar_cases (pr : Char → Bool) {q : Char} (c : Char) :
    (reprChar pr q c = [c] ∧ c ≠ q ∧ c ≠ '\\') ∨
    (∃ k, reprChar pr q c = ['\\', k] ∧ ((k = c ∧ (c = q ∨ c = '\\')) ∨ (k = 't' ∧ c = '\t') ∨
      (k = 'n' ∧ c = '\n') ∨ (k = 'r' ∧ c = '\r'))) ∨
    (∃ k w, reprChar pr q c = '\\' :: k :: hexDigits c.toNat w ∧ c.toNat < 16 ^ w ∧
      ((k = 'x' ∧ w = 2) ∨ (k = 'u' ∧ w = 4) ∨ (k = 'U' ∧ w = 8))) := by
  unfold reprChar
  by_cases h1 : c = q ∨ c = '\\'
  · rw [if_pos h1]
    exact .inr (.inl ⟨c, rfl, .inl ⟨rfl, h1⟩⟩)
  rw [if_neg h1]
  have hne : c ≠ q ∧ c ≠ '\\' := ⟨fun e => h1 (.inl e), fun e => h1 (.inr e)⟩
  by_cases h2 : c = '\t'
  · rw [if_pos h2]
    exact .inr (.inl ⟨'t', rfl, .inr (.inl ⟨rfl, h2⟩)⟩)
  rw [if_neg h2]
  by_cases h3 : c = '\n'
  · rw [if_pos h3]
    exact .inr (.inl ⟨'n', rfl, .inr (.inr (.inl ⟨rfl, h3⟩))⟩)
  rw [if_neg h3]
  by_cases h4 : c = '\r'
  · rw [if_pos h4]
    exact .inr (.inl ⟨'r', rfl, .inr (.inr (.inr ⟨rfl, h4⟩))⟩)
  rw [if_neg h4]
  by_cases h5 : c.toNat < 32 ∨ c.toNat = 127
  · rw [if_pos h5]
    exact .inr (.inr ⟨'x', 2, rfl, by omega, .inl ⟨rfl, rfl⟩⟩)
  rw [if_neg h5]
  by_cases h6 : c.toNat < 127
  · rw [if_pos h6]
    exact .inl ⟨rfl, hne⟩
  rw [if_neg h6]
  by_cases h7 : pr c = true
  · rw [if_pos h7]
    exact .inl ⟨rfl, hne⟩
  rw [if_neg h7]
  by_cases h8 : c.toNat < 2 ^ 8
  · rw [if_pos h8]
    exact .inr (.inr ⟨'x', 2, rfl, by omega, .inl ⟨rfl, rfl⟩⟩)
  rw [if_neg h8]
  by_cases h9 : c.toNat < 2 ^ 16
  · rw [if_pos h9]
    exact .inr (.inr ⟨'u', 4, rfl, by omega, .inr (.inl ⟨rfl, rfl⟩)⟩)
  rw [if_neg h9]
  exact .inr (.inr ⟨'U', 8, rfl, char_toNat_lt c, .inr (.inr ⟨rfl, rfl⟩)⟩)

theorem reprChar_cancel (pr : Char → Bool) {q : Char} (hq : q = '\'' ∨ q = '"') : Delimited (reprChar pr q) := by
  intro c d x y h
  have hqn : q ≠ 't' ∧ q ≠ 'n' ∧ q ≠ 'r' ∧ q ≠ 'x' ∧ q ≠ 'u' ∧ q ≠ 'U' ∧ q ≠ '\\' := by
    rcases hq with rfl | rfl <;> decide
  rcases reprChar_cases pr (q := q) c with ⟨ec, c1, c2⟩ | ⟨k, ec, hk⟩ | ⟨k, w, ec, hw, hk⟩ <;>
    rcases reprChar_cases pr (q := q) d with ⟨ed, d1, d2⟩ | ⟨k', ed, hk'⟩ | ⟨k', w', ed, hw', hk'⟩ <;>
    rw [ec, ed] at h
  · exact ⟨(List.cons.inj h).1, (List.cons.inj h).2⟩
  · exact absurd (List.cons.inj h).1 c2
  · exact absurd (List.cons.inj h).1 c2
  · exact absurd (List.cons.inj h).1.symm d2
  · obtain ⟨_, h2⟩ := List.cons.inj h
    obtain ⟨h3, h4⟩ := List.cons.inj h2
    subst h3
    refine ⟨?_, h4⟩
    rcases hk with ⟨rfl, hk⟩ | ⟨rfl, hk⟩ | ⟨rfl, hk⟩ | ⟨rfl, hk⟩ <;>
      rcases hk' with ⟨e, hk'⟩ | ⟨e, hk'⟩ | ⟨e, hk'⟩ | ⟨e, hk'⟩ <;> grind
  · obtain ⟨_, h2⟩ := List.cons.inj h
    obtain ⟨h3, h4⟩ := List.cons.inj h2
    exfalso
    grind
  · exact absurd (List.cons.inj h).1.symm d2
  · obtain ⟨_, h2⟩ := List.cons.inj h
    obtain ⟨h3, h4⟩ := List.cons.inj h2
    exfalso
    grind
  · obtain ⟨_, h2⟩ := List.cons.inj h
    obtain ⟨h3, h4⟩ := List.cons.inj h2
    have hww : w = w' := by grind
    subst hww
    obtain ⟨h5, h6⟩ := hexDigits_cancel hw hw' h4
    exact ⟨char_toNat_inj h5, h6⟩

theorem reprChar_head (pr : Char → Bool) {q : Char} (hq : q = '\'' ∨ q = '"') (c : Char) :
    ∃ k r, reprChar pr q c = k :: r ∧ k ≠ q := by
  have hqn : '\\' ≠ q := by rcases hq with rfl | rfl <;> decide
  rcases reprChar_cases pr (q := q) c with ⟨ec, c1, c2⟩ | ⟨k, ec, hk⟩ | ⟨k, w, ec, hw, hk⟩
  · exact ⟨_, _, ec, c1⟩
  · exact ⟨_, _, ec, hqn⟩
  · exact ⟨_, _, ec, hqn⟩

/-- A sequence of delimited items up to a terminator no item starts with. -/
theorem flatMap_cancel {α : Type} {f : α → List Char} (hf : Delimited f) {q : Char}
    (hh : ∀ a, ∃ k r, f a = k :: r ∧ k ≠ q) : Delimited fun l : List α => l.flatMap f ++ [q] := by
  intro l
  induction l with
  | nil =>
    intro m x y h
    cases m with
    | nil => exact ⟨rfl, (List.cons.inj h).2⟩
    | cons b m =>
      obtain ⟨k, r, e, hk⟩ := hh b
      simp only [List.flatMap_nil, List.flatMap_cons, e, List.nil_append, List.cons_append] at h
      exact absurd (List.cons.inj h).1.symm hk
  | cons a l ih =>
    intro m x y h
    cases m with
    | nil =>
      obtain ⟨k, r, e, hk⟩ := hh a
      simp only [List.flatMap_nil, List.flatMap_cons, e, List.nil_append, List.cons_append] at h
      exact absurd (List.cons.inj h).1 hk
    | cons b m =>
      simp only [List.flatMap_cons, List.append_assoc] at h
      obtain ⟨h1, h2⟩ := hf _ _ _ _ h
      obtain ⟨h3, h4⟩ := ih m x y (by simpa only [List.append_assoc] using h2)
      exact ⟨by rw [h1, h3], h4⟩

theorem strRepr_toList (pr : Char → Bool) (s : String) : (strRepr pr s).toList =
    reprQuote s.toList :: (s.toList.flatMap (reprChar pr (reprQuote s.toList)) ++ [reprQuote s.toList]) := by
  unfold strRepr
  rw [String.toList_ofList]

theorem reprQuote_or (l : List Char) : reprQuote l = '\'' ∨ reprQuote l = '"' := by
  unfold reprQuote
  split_ifs
  · exact .inr rfl
  · exact .inl rfl

/-- `repr` of a text is delimited. -/
theorem strRepr_delimited (pr : Char → Bool) : Delimited fun s => (strRepr pr s).toList := by
  intro s t x y h
  simp only [strRepr_toList, List.cons_append] at h
  obtain ⟨h1, h2⟩ := List.cons.inj h
  rw [← h1] at h2
  have hq := reprQuote_or s.toList
  obtain ⟨h3, h4⟩ := flatMap_cancel (reprChar_cancel pr hq) (reprChar_head pr hq) _ _ _ _ h2
  exact ⟨String.toList_inj.1 h3, h4⟩

theorem strRepr_head (pr : Char → Bool) (s : String) : ∃ k r, (strRepr pr s).toList = k :: r ∧ (k = '\'' ∨ k = '"') :=
  ⟨_, _, strRepr_toList pr s, reprQuote_or _⟩

/-- Items joined by commas, up to a terminator no item starts with. -/
theorem join_delimited {α : Type} {f : α → String} (hf : Delimited fun a => (f a).toList) {t : Char}
    (ht : t ≠ ',') (hh : ∀ a, ∃ k r, (f a).toList = k :: r ∧ k ≠ t) :
    Delimited fun l : List α => (joinComma (l.map f)).toList ++ [t] := by
  have step : ∀ a b (l : List α), (joinComma ((a :: b :: l).map f)).toList =
      (f a).toList ++ (',' :: ' ' :: (joinComma ((b :: l).map f)).toList) := by
    intro a b l
    simp only [List.map_cons, joinComma, String.toList_append, List.append_assoc]
    rfl
  have one : ∀ a, (joinComma ([a].map f)).toList = (f a).toList := fun a => rfl
  have nil : ∀ b m x y, (joinComma (([] : List α).map f)).toList ++ [t] ++ x =
      (joinComma ((b :: m).map f)).toList ++ [t] ++ y → False := by
    intro b m x y h
    obtain ⟨k, r, e, hk⟩ := hh b
    cases m with
    | nil => rw [one, e] at h; exact hk (List.cons.inj h).1.symm
    | cons c m => rw [step, e] at h; exact hk (List.cons.inj h).1.symm
  intro l
  induction l with
  | nil =>
    intro m x y h
    cases m with
    | nil => exact ⟨rfl, List.append_cancel_left h⟩
    | cons b m => exact (nil b m x y h).elim
  | cons a l ih =>
    intro m x y h
    cases m with
    | nil => exact (nil a l y x h.symm).elim
    | cons b m =>
      cases l with
      | nil =>
        cases m with
        | nil =>
          simp only [one, List.append_assoc] at h
          obtain ⟨h1, h2⟩ := hf _ _ _ _ h
          exact ⟨by rw [h1], (List.cons.inj h2).2⟩
        | cons c m =>
          simp only [one, step, List.append_assoc] at h
          obtain ⟨h1, h2⟩ := hf _ _ _ _ h
          exact absurd (List.cons.inj h2).1 ht
      | cons c l =>
        cases m with
        | nil =>
          simp only [one, step, List.append_assoc] at h
          obtain ⟨h1, h2⟩ := hf _ _ _ _ h
          exact absurd (List.cons.inj h2).1.symm ht
        | cons d m =>
          simp only [step, List.append_assoc] at h
          obtain ⟨h1, h2⟩ := hf _ _ _ _ h
          have h3 := (List.cons.inj (List.cons.inj h2).2).2
          obtain ⟨h4, h5⟩ := ih (d :: m) x y (by simp only [List.append_assoc]; exact h3)
          exact ⟨by rw [h1, h4], h5⟩

/-- An opening character in front keeps a code delimited. -/
theorem Delimited.cons {α : Type} {f : α → List Char} (h : Delimited f) (pre : List Char) :
    Delimited fun a => pre ++ f a := by
  intro a b x y e
  simp only [List.append_assoc] at e
  exact h a b x y (List.append_cancel_left e)

variable (p : Shown)

theorem listRepr_delimited {α : Type} {f : α → String} (hf : Delimited fun a => (f a).toList)
    (hh : ∀ a, ∃ k r, (f a).toList = k :: r ∧ k ≠ ']') :
    Delimited fun l : List α => (listRepr (l.map f)).toList := by
  have h := (join_delimited hf (by decide) hh).cons "[".toList
  intro a b x y e
  simp only [listRepr, String.toList_append, List.append_assoc] at e
  exact h a b x y (by simp only [List.append_assoc]; exact e)

/-- `repr` of a list of texts is delimited. -/
theorem strs_delimited : Delimited fun l => (p.strs l).toList :=
  listRepr_delimited (strRepr_delimited p.printable) fun s => by
    obtain ⟨k, r, e, hk⟩ := strRepr_head p.printable s
    exact ⟨k, r, e, by rcases hk with rfl | rfl <;> decide⟩

/-- A key, a colon, a value. -/
theorem pair_delimited {α : Type} {g : α → String} (hg : Delimited fun a => (g a).toList) :
    Delimited fun kv : String × α => (p.str kv.1 ++ ": " ++ g kv.2).toList := by
  intro a b x y e
  simp only [String.toList_append, List.append_assoc] at e
  obtain ⟨h1, h2⟩ := strRepr_delimited p.printable _ _ _ _ e
  obtain ⟨h3, h4⟩ := hg _ _ _ _ (List.append_cancel_left h2)
  exact ⟨Prod.ext h1 h3, h4⟩

theorem dictRepr_delimited {α : Type} {g : α → String} (hg : Delimited fun a => (g a).toList) :
    Delimited fun d : List (String × α) => (dictRepr (d.map fun kv => (p.str kv.1, g kv.2))).toList := by
  have h := (join_delimited (f := fun kv : String × α => p.str kv.1 ++ ": " ++ g kv.2)
    (pair_delimited p hg) (t := '}') (by decide) fun kv => by
      obtain ⟨k, r, e, hk⟩ := strRepr_head p.printable kv.1
      refine ⟨k, r ++ (": ".toList ++ (g kv.2).toList), ?_, by rcases hk with rfl | rfl <;> decide⟩
      simp only [String.toList_append, List.append_assoc, Shown.str, e]
      rfl).cons "{".toList
  intro a b x y e
  simp only [dictRepr, String.toList_append, List.append_assoc, List.map_map] at e
  exact h a b x y (by simp only [List.append_assoc]; exact e)

/-- `repr` of a dict of texts is delimited. -/
theorem dict_delimited : Delimited fun d => (p.dict d).toList :=
  dictRepr_delimited p (g := p.str) (strRepr_delimited p.printable)

/-- `repr` of a set of texts is delimited. -/
theorem set_delimited : Delimited fun l : List String => (setRepr (l.map p.str)).toList := by
  have h := (join_delimited (strRepr_delimited p.printable) (t := '}') (by decide) fun s => by
    obtain ⟨k, r, e, hk⟩ := strRepr_head p.printable s
    exact ⟨k, r, e, by rcases hk with rfl | rfl <;> decide⟩).cons "{".toList
  intro a b x y e
  cases a with
  | nil =>
    cases b with
    | nil => exact ⟨rfl, List.append_cancel_left e⟩
    | cons c b =>
      have e' : 's' :: ("et()".toList ++ x) = '{' :: ((joinComma ((c :: b).map p.str)).toList ++ ("}".toList ++ y)) := by
        simp only [setRepr, List.map_cons, reduceCtorEq, if_false, String.toList_append, List.append_assoc,
          List.map_nil, if_true] at e
        exact e
      exact absurd (List.cons.inj e').1 (by decide)
  | cons c a =>
    cases b with
    | nil =>
      have e' : '{' :: ((joinComma ((c :: a).map p.str)).toList ++ ("}".toList ++ x)) = 's' :: ("et()".toList ++ y) := by
        simp only [setRepr, List.map_cons, reduceCtorEq, if_false, String.toList_append, List.append_assoc,
          List.map_nil, if_true] at e
        exact e
      exact absurd (List.cons.inj e').1 (by decide)
    | cons d b =>
      simp only [setRepr, List.map_cons, reduceCtorEq, if_false, String.toList_append, List.append_assoc] at e
      exact h _ _ x y (by simp only [List.append_assoc]; exact e)

/-- `repr` of a dict of sets, as written in iteration order, is delimited. -/
theorem setDict_delimited {d e : Dict String (List String)} {x y : List Char}
    (h : (p.setDict d).toList ++ x = (p.setDict e).toList ++ y) :
    d.map (fun kv => (kv.1, p.ho.order kv.2)) = e.map (fun kv => (kv.1, p.ho.order kv.2)) ∧ x = y := by
  refine dictRepr_delimited p (g := fun l => setRepr (l.map p.str)) (set_delimited p) _ _ x y ?_
  simp only [List.map_map]
  exact h

end Verif
