import Verif.Props.Rest
import Verif.Spec.Glob
/-!
# C87: wildcards in registered paths
-/

namespace Verif
open Py Spec Glob

/-- The chunks between the hyphens of a set, behind `cur`. -/
def chunkOf (cur : List Char) : List SetItem → List (List Char)
  | [] => [cur]
  | .char c :: is => chunkOf (cur ++ [c]) is
  | .range a b :: is => (cur ++ [a]) :: chunkOf [b] is

/-- The range of a member. -/
def bounds : SetItem → Char × Char
  | .char c => (c, c)
  | .range a b => (a, b)

theorem findHyphen_none {l : List Char} (skip : Nat) (h : '-' ∉ l.drop skip) : findHyphen skip l = none := by
  induction l generalizing skip with
  | nil => cases skip <;> rfl
  | cons c l ih =>
    cases skip with
    | zero =>
      simp only [List.drop_zero, List.mem_cons, not_or] at h
      rw [findHyphen, if_neg (fun e => h.1 e.symm), ih 0 (by simpa using h.2)]; rfl
    | succ k => rw [findHyphen, ih k (by simpa using h)]; rfl

theorem findHyphen_at {l : List Char} (r : List Char) (skip : Nat) (h : '-' ∉ l.drop skip) (hs : skip ≤ l.length) :
    findHyphen skip (l ++ '-' :: r) = some l.length := by
  induction l generalizing skip with
  | nil =>
    have : skip = 0 := by simpa using hs
    subst this
    simp [findHyphen]
  | cons c l ih =>
    cases skip with
    | zero =>
      simp only [List.drop_zero, List.mem_cons, not_or] at h
      rw [List.cons_append, findHyphen, if_neg (fun e => h.1 e.symm), ih 0 (by simpa using h.2) (by omega)]; rfl
    | succ k => rw [List.cons_append, findHyphen, ih k (by simpa using h) (by simpa using hs)]; rfl

theorem chunks_ne (fuel skip : Nat) (s : List Char) : chunks fuel skip s ≠ [] := by
  cases fuel with
  | zero => simp [chunks]
  | succ n => unfold chunks; split <;> simp

theorem chunks_ne_nil (fuel skip : Nat) {s : List Char} (h : s ≠ []) : chunks fuel skip s ≠ [[]] := by
  cases fuel with
  | zero => simpa [chunks] using h
  | succ n =>
    unfold chunks
    split
    · simpa using h
    · intro e
      injection e with _ e
      exact chunks_ne _ _ _ e

theorem fixTail_cons (c : List Char) {cs : List (List Char)} (h : cs ≠ [[]]) : fixTail (c :: cs) = c :: fixTail cs := by
  rw [fixTail.eq_def]
  split
  · rename_i e; injection e with _ e; exact absurd e h
  · rename_i e; injection e with e1 e2; rw [e1, e2]
  · rename_i e; cases e

theorem drop_snoc (cur : List Char) (c : Char) {skip : Nat} (h : '-' ∉ cur.drop skip) (hc : c = '-' → cur.length < skip) :
    '-' ∉ (cur ++ [c]).drop skip := by
  by_cases hl : cur.length < skip
  · rw [List.drop_eq_nil_of_le (by simp; omega)]; simp
  · rw [List.drop_append_of_le_length (by omega)]
    simp only [List.mem_append, List.mem_singleton, not_or]
    exact ⟨h, fun e => hl (hc e.symm)⟩

theorem chunks_items (is : List SetItem) (start free : Bool) (h : SetOK start free is) (cur : List Char) (skip fuel : Nat)
    (hc : '-' ∉ cur.drop skip) (hfree : free = true → cur.length < skip)
    (hs : skip ≤ cur.length + 1) (hf : (cur ++ is.flatMap SetItem.text).length ≤ fuel) :
    fixTail (chunks fuel skip (cur ++ is.flatMap SetItem.text)) = chunkOf cur is := by
  induction is generalizing start free cur skip fuel with
  | nil =>
    simp only [List.flatMap_nil, List.append_nil, chunkOf]
    cases fuel with
    | zero => rfl
    | succ n => rw [chunks, findHyphen_none _ hc]; rfl
  | cons i is ih =>
    cases i with
    | char c =>
      obtain ⟨-, h1, -, h2⟩ := h
      by_cases hx : c = '-' ∧ is = [] ∧ ¬ cur.length < skip
      · obtain ⟨rfl, rfl, hl⟩ := hx
        simp only [List.flatMap_cons, SetItem.text, List.flatMap_nil, List.append_nil, chunkOf] at hf ⊢
        cases fuel with
        | zero => simp at hf
        | succ n =>
          rw [chunks, findHyphen_at [] skip hc (by omega)]
          simp only [List.take_left]
          rw [List.drop_eq_nil_of_le (by simp)]
          cases n <;> rfl
      · have hc' := drop_snoc cur c hc (by
          intro e
          rcases h1 e with hfr | hnil
          · exact hfree hfr
          · exact Classical.not_not.1 fun hl => hx ⟨e, hnil, hl⟩)
        have := ih false false h2 (cur ++ [c]) skip fuel hc' (by simp) (by simp; omega) (by simpa [SetItem.text] using hf)
        simpa [chunkOf, SetItem.text] using this
    | range a b =>
      obtain ⟨-, h1, -, h2, h3, h4⟩ := h
      have hc' := drop_snoc cur a hc fun e => hfree (h1 e)
      have e : cur ++ (SetItem.range a b :: is).flatMap SetItem.text =
          (cur ++ [a]) ++ '-' :: ([b] ++ is.flatMap SetItem.text) := by simp [SetItem.text]
      rw [e] at hf ⊢
      cases fuel with
      | zero => simp at hf
      | succ n =>
        rw [chunks, findHyphen_at _ skip hc' (by simpa using hs)]
        simp only
        have hd : ((cur ++ [a]) ++ '-' :: ([b] ++ is.flatMap SetItem.text)).drop ((cur ++ [a]).length + 1) =
            [b] ++ is.flatMap SetItem.text := by
          rw [List.drop_append, List.drop_eq_nil_of_le (by omega)]
          simp
        rw [List.take_left, hd, fixTail_cons _ (chunks_ne_nil _ _ (by simp)),
          ih false true h4 [b] 2 n (by simp) (by simp) (by simp) (by simp at hf ⊢; omega)]
        rfl

theorem chunkOf_shape (is : List SetItem) (cur : List Char) : ∃ h t,
    (∀ pre, chunkOf (pre ++ cur) is = (pre ++ h) :: t) ∧
    setItems h t = cur.map (fun x => (x, x)) ++ is.map bounds ∧ (cur ≠ [] → h ≠ []) ∧ h.head? = (cur ++ is.flatMap SetItem.text).head? := by
  induction is generalizing cur with
  | nil => exact ⟨cur, [], fun _ => rfl, by simp [setItems], id, by simp⟩
  | cons i is ih =>
    cases i with
    | char c =>
      obtain ⟨h, t, h1, h2, h3, h4⟩ := ih (cur ++ [c])
      refine ⟨h, t, fun pre => ?_, ?_, fun _ => h3 (by simp), ?_⟩
      · rw [chunkOf, List.append_assoc]; exact h1 pre
      · rw [h2]; simp [bounds]
      · rw [h4]; simp [SetItem.text]
    | range a b =>
      obtain ⟨h, t, h1, h2, h3, h4⟩ := ih []
      refine ⟨cur ++ [a], chunkOf [b] is, fun pre => ?_, ?_, fun _ => by simp, ?_⟩
      · rw [chunkOf, List.append_assoc]
      · have := h1 [b]
        rw [List.append_nil] at this
        rw [this]
        show setItems _ ((b :: h) :: t) = _
        rw [setItems, h2]
        simp [bounds]
      · cases cur <;> simp [SetItem.text]

theorem fixRanges_chunkOf (is : List SetItem) (cur : List Char) :
    fixRanges (chunkOf cur is) = chunkOf cur (is.filter SetItem.upwards) := by
  induction is generalizing cur with
  | nil => rfl
  | cons i is ih =>
    cases i with
    | char c =>
      rw [List.filter_cons_of_pos rfl]
      exact ih _
    | range a b =>
      obtain ⟨h, t, h1, -⟩ := chunkOf_shape (is.filter SetItem.upwards) []
      have e := h1 [b]
      rw [List.append_nil] at e
      have hrec := ih [b]
      rw [chunkOf, fixRanges, hrec, e]
      simp only
      have e1 : (cur ++ [a]).getLastD ' ' = a := by simp
      have e2 : ([b] ++ h).headD ' ' = b := rfl
      rw [e1, e2]
      by_cases hab : a ≤ b
      · rw [if_neg (Char.not_lt.2 hab), List.filter_cons_of_pos (by simpa [SetItem.upwards] using hab), chunkOf, e]
      · have h2 := h1 cur
        rw [List.append_nil] at h2
        rw [if_pos (Char.not_le.1 hab), List.filter_cons_of_neg (by simpa [SetItem.upwards] using hab), h2]
        simp

theorem upwards_ok {is : List SetItem} (h : '-' ∉ is.flatMap SetItem.text) :
    is.filter SetItem.upwards = is := by
  rw [List.filter_eq_self]
  intro i hi
  cases i with
  | char c => rfl
  | range a b => exact absurd (List.mem_flatMap.2 ⟨_, hi, by simp [SetItem.text]⟩) h

theorem classOf_aux (pre : List Char) (items : List SetItem) (hok : SetOK true true items) (skip : Nat) (hs : skip = pre.length + 1) :
    (if (pre ++ items.flatMap SetItem.text).contains '-' then
      fixRanges (fixTail (chunks (pre ++ items.flatMap SetItem.text).length skip (pre ++ items.flatMap SetItem.text)))
      else [pre ++ items.flatMap SetItem.text]) = chunkOf pre (items.filter SetItem.upwards) := by
  subst hs
  have hch := chunks_items items true true hok pre (pre.length + 1) _
    (by rw [List.drop_eq_nil_of_le (Nat.le_succ _)]; simp) (fun _ => Nat.lt_succ_self _) (le_refl _) (le_refl _)
  by_cases hc : (pre ++ items.flatMap SetItem.text).contains '-' = true
  · rw [if_pos hc, hch, fixRanges_chunkOf]
  · have hno : '-' ∉ pre ++ items.flatMap SetItem.text := by simpa using hc
    rw [if_neg hc, upwards_ok (fun hx => hno (by simp only [List.mem_append]; exact .inr hx)), ← hch]
    generalize pre ++ items.flatMap SetItem.text = s at hno ⊢
    cases s with
    | nil => rfl
    | cons c s => rw [List.length_cons, chunks, findHyphen_none _ (fun hx => hno (List.mem_of_mem_drop hx))]; rfl

/-- What a class matches. -/
def Glob.takes : Glob → Char → Bool
  | .cls neg ranges, x => (ranges.any fun r => decide (r.1 ≤ x) && decide (x ≤ r.2)) != neg
  | .any, _ => true
  | _, _ => false

theorem classOf_items (neg : Bool) (items : List SetItem) (hok : SetOK true true items)
    (hb : neg = false → (items.flatMap SetItem.text).head? ≠ some '!' ∧
      ((items.filter SetItem.upwards).flatMap SetItem.text).head? ≠ some '!') :
    ∃ g, classOf ((if neg then ['!'] else []) ++ items.flatMap SetItem.text) = g ∧
      (g = .never ∨ g = .any ∨ ∃ n r, g = .cls n r) ∧
      ∀ x, Glob.takes g x = ((((items.filter SetItem.upwards).map bounds).any
        fun r => decide (r.1 ≤ x) && decide (x ≤ r.2)) != neg) := by
  obtain ⟨h, t, h1, h2, h3, h4⟩ := chunkOf_shape (items.filter SetItem.upwards) []
  simp only [List.map_nil, List.nil_append] at h2 h4
  refine ⟨_, rfl, ?_⟩
  cases neg with
  | true =>
    have e := h1 ['!']
    rw [List.append_nil] at e
    have hcs := classOf_aux ['!'] items hok 2 rfl
    rw [e] at hcs
    have hx : (['!'] ++ items.flatMap SetItem.text).head? = some '!' := rfl
    rw [if_pos rfl]
    unfold classOf
    rw [if_pos hx]
    simp only [hcs]
    rw [← h2]
    cases h with
    | nil =>
      cases t with
      | nil => exact ⟨.inr (.inl rfl), fun x => by simp [Glob.takes, setItems]⟩
      | cons d t => exact ⟨.inr (.inr ⟨_, _, rfl⟩), fun x => rfl⟩
    | cons c h => exact ⟨.inr (.inr ⟨_, _, rfl⟩), fun x => rfl⟩
  | false =>
    have e := h1 []
    rw [List.append_nil] at e
    have hbang := (hb rfl).1
    have hbang2 := (hb rfl).2
    have hcs := classOf_aux [] items hok 1 rfl
    rw [e] at hcs
    rw [List.nil_append] at hcs
    rw [if_neg (by decide), List.nil_append]
    unfold classOf
    rw [if_neg hbang]
    simp only [hcs]
    rw [← h4] at hbang2
    rw [← h2]
    cases h with
    | nil =>
      cases t with
      | nil => exact ⟨.inl rfl, fun x => by simp [Glob.takes, setItems]⟩
      | cons d t => exact ⟨.inr (.inr ⟨_, _, rfl⟩), fun x => rfl⟩
    | cons c h =>
      have hc : c ≠ '!' := by simpa using hbang2
      split
      · simp_all
      · simp_all
      · simp_all
      · simp_all
      · rename_i hx
        injection hx with h5 h6
        subst h5 h6
        exact ⟨.inr (.inr ⟨_, _, rfl⟩), fun x => rfl⟩

theorem items_close (items : List SetItem) (free : Bool) (hok : SetOK false free items) :
    ∀ c ∈ items.flatMap SetItem.text, c ≠ ']' := by
  induction items generalizing free with
  | nil => simp
  | cons i is ih =>
    cases i with
    | char x =>
      obtain ⟨h1, -, -, h2⟩ := hok
      simp only [List.flatMap_cons, SetItem.text, List.mem_append, List.mem_singleton]
      rintro c (rfl | hc)
      · exact fun e => absurd (h1 e) (by decide)
      · exact ih _ h2 c hc
    | range a b =>
      obtain ⟨h1, -, -, h2, -, h3⟩ := hok
      simp only [List.flatMap_cons, SetItem.text, List.mem_append, List.mem_cons, List.not_mem_nil, or_false]
      rintro c ((rfl | rfl | rfl) | hc)
      · exact fun e => absurd (h1 e) (by decide)
      · decide
      · exact h2
      · exact ih _ h3 c hc

theorem items_head (items : List SetItem) (hne : items ≠ []) (hok : SetOK true true items) :
    ∃ c l, items.flatMap SetItem.text = c :: l ∧ ∀ x ∈ l, x ≠ ']' := by
  cases items with
  | nil => exact absurd rfl hne
  | cons i is =>
    cases i with
    | char c =>
      obtain ⟨-, -, -, h2⟩ := hok
      exact ⟨c, is.flatMap SetItem.text, by simp [SetItem.text], items_close is _ h2⟩
    | range a b =>
      obtain ⟨-, -, -, h2, -, h3⟩ := hok
      refine ⟨a, '-' :: b :: is.flatMap SetItem.text, by simp [SetItem.text], ?_⟩
      simp only [List.mem_cons]
      rintro x (rfl | rfl | hx)
      · decide
      · exact h2
      · exact items_close is _ h3 x hx

theorem items_chars (items : List SetItem) (start free : Bool) (hok : SetOK start free items) :
    ∀ c ∈ items.flatMap SetItem.text, c ≠ '{' := by
  induction items generalizing start free with
  | nil => simp
  | cons i is ih =>
    cases i with
    | char x =>
      obtain ⟨-, -, h1, h2⟩ := hok
      simp only [List.flatMap_cons, SetItem.text, List.mem_append, List.mem_singleton]
      rintro c (rfl | hc)
      · exact h1
      · exact ih _ _ h2 c hc
    | range a b =>
      obtain ⟨-, -, h1, -, h2, h3⟩ := hok
      simp only [List.flatMap_cons, SetItem.text, List.mem_append, List.mem_cons, List.not_mem_nil, or_false]
      rintro c ((rfl | rfl | rfl) | hc)
      · exact h1
      · decide
      · exact h2
      · exact ih _ _ h3 c hc

theorem takeWhile_class (l r : List Char) (h : ∀ c ∈ l, c ≠ ']') :
    (l ++ ']' :: r).takeWhile (· ≠ ']') = l := by
  induction l with
  | nil => simp
  | cons c l ih =>
    rw [List.cons_append, List.takeWhile_cons_of_pos (by simpa using h c (by simp)), ih fun x hx => h x (by simp [hx])]

theorem splitClass_aux (pre : List Char) (c : Char) (l rest : List Char) (hl : ∀ x ∈ l, x ≠ ']')
    (hpre : pre = ['!'] ∨ pre = [] ∧ c ≠ '!') :
    splitClass (pre ++ (c :: l ++ ']' :: rest)) = some (pre ++ c :: l, rest) := by
  have hbang : (if (pre ++ (c :: l ++ ']' :: rest)).head? = some '!' then 1 else 0) = pre.length := by
    rcases hpre with rfl | ⟨rfl, hc⟩
    · rfl
    · rw [if_neg (by simpa using hc)]; rfl
  unfold splitClass
  simp only [hbang, List.drop_left]
  by_cases hc : c = ']'
  · subst hc
    have e : pre ++ (']' :: l ++ ']' :: rest) = (pre ++ [']']) ++ (l ++ ']' :: rest) := by simp
    have hlen : pre.length + 1 = (pre ++ [']']).length := by simp
    have h1 : (']' :: l ++ ']' :: rest).head? = some ']' := rfl
    rw [if_pos h1, e, hlen, List.drop_left, List.take_left, takeWhile_class l rest hl, if_neg (by simp)]
    have : (l ++ ']' :: rest).drop (l.length + 1) = rest := by
      rw [List.drop_append, List.drop_eq_nil_of_le (by omega)]; simp
    rw [this]; simp
  · have h1 : (c :: l ++ ']' :: rest).head? ≠ some ']' := by simpa using hc
    have hall : ∀ x ∈ c :: l, x ≠ ']' := by
      intro x hx
      rcases List.mem_cons.1 hx with rfl | hx
      · exact hc
      · exact hl x hx
    rw [if_neg h1, Nat.add_zero, List.drop_left, List.take_left, takeWhile_class (c :: l) rest hall, if_neg (by simp)]
    have : (c :: l ++ ']' :: rest).drop ((c :: l).length + 1) = rest := by
      rw [List.drop_append, List.drop_eq_nil_of_le (by omega)]; simp
    rw [this]

theorem splitClass_items (neg : Bool) (items : List SetItem) (hne : items ≠ []) (hok : SetOK true true items)
    (hb : neg = false → (items.flatMap SetItem.text).head? ≠ some '!') (rest : List Char) :
    splitClass ((if neg then ['!'] else []) ++ (items.flatMap SetItem.text ++ ']' :: rest)) =
      some ((if neg then ['!'] else []) ++ items.flatMap SetItem.text, rest) := by
  obtain ⟨c, l, e, hl⟩ := items_head items hne hok
  rw [e] at hb ⊢
  refine splitClass_aux _ c l rest hl ?_
  cases neg with
  | true => exact .inl rfl
  | false => exact .inr ⟨rfl, by simpa using hb rfl⟩

theorem splitClass_open {s : List Char} (h : ']' ∉ s) : splitClass s = none := by
  have htw : ∀ l : List Char, ']' ∉ l → l.takeWhile (· ≠ ']') = l := by
    intro l hl
    induction l with
    | nil => rfl
    | cons c l ih =>
      simp only [List.mem_cons, not_or] at hl
      rw [List.takeWhile_cons_of_pos (by simpa using Ne.symm hl.1), ih hl.2]
  unfold splitClass
  simp only
  rw [htw _ (fun hx => h (List.mem_of_mem_drop hx)), if_pos rfl]

/-- The piece a placeholder becomes. -/
def unhole : GlobPiece → GlobPiece
  | .placeholder _ => .star
  | p => p

theorem afterBrace_open {s : List Char} (h : '}' ∉ s) : afterBrace s = none := by
  induction s with
  | nil => rfl
  | cons c s ih =>
    simp only [List.mem_cons, not_or] at h
    rw [afterBrace, if_neg (Ne.symm h.1), ih h.2]; split <;> rfl

theorem afterName_open {s : List Char} (h : '}' ∉ s) : afterName s = none := by
  cases s with
  | nil => rfl
  | cons c s =>
    simp only [List.mem_cons, not_or] at h
    rw [afterName, afterBrace_open h.2]; split <;> rfl

theorem subBraces_glob (ps : List GlobPiece) (h : GlobOK ps) (fuel : Nat)
    (hf : (globText ps).length ≤ fuel) : subBraces fuel (globText ps) = globText (ps.map unhole) := by
  induction ps generalizing fuel with
  | nil => cases fuel <;> rfl
  | cons p ps ih =>
    obtain ⟨hp, hbr, hbc, hps⟩ := h
    have ih := ih hps
    cases p with
    | text s =>
      simp only [globText, List.map_cons, unhole] at hf ⊢
      rw [subBraces_plain _ _ (fun hc => (hp _ hc).2.2.2 rfl) _ hf, ih _ (by simp at hf; omega)]
    | any =>
      simp only [globText, List.map_cons, unhole] at hf ⊢
      have := subBraces_plain ['?'] (globText ps) (by decide) fuel hf
      rw [List.singleton_append] at this
      rw [this, ih _ (by simp at hf ⊢; omega)]; rfl
    | star =>
      simp only [globText, List.map_cons, unhole] at hf ⊢
      have := subBraces_plain ['*'] (globText ps) (by decide) fuel hf
      rw [List.singleton_append] at this
      rw [this, ih _ (by simp at hf ⊢; omega)]; rfl
    | set neg items =>
      simp only [List.map_cons, unhole]
      have e : ∀ r, '[' :: ((if neg then ['!'] else []) ++ (items.flatMap SetItem.text ++ ']' :: r)) =
          ('[' :: ((if neg then ['!'] else []) ++ items.flatMap SetItem.text) ++ [']']) ++ r := by intro r; simp
      simp only [globText, e] at hf ⊢
      rw [subBraces_plain _ _ ?_ _ hf, ih _ (by simp at hf ⊢; omega)]
      intro hc
      simp only [List.cons_append, List.mem_cons, List.mem_append, List.not_mem_nil, or_false] at hc
      rcases hc with hc | (hc | hc) | hc
      · exact absurd hc (by decide)
      · cases neg <;> simp at hc
      · exact items_chars items _ _ hp.2.1 _ hc rfl
      · exact absurd hc (by decide)
    | placeholder n =>
      simp only [globText, List.map_cons, unhole, List.length_cons, List.length_append] at hf ⊢
      rw [subBraces_hole _ _ hp.1 hp.2 _ (by omega), ih _ (by omega)]
    | bracket =>
      simp only [globText, List.map_cons, unhole] at hf ⊢
      have := subBraces_plain ['['] (globText ps) (by decide) fuel hf
      rw [List.singleton_append] at this
      rw [this, ih _ (by simp at hf ⊢; omega)]; rfl

    | brace =>
      simp only [globText, List.map_cons, unhole, List.length_cons] at hf ⊢
      obtain ⟨k, rfl⟩ : ∃ k, fuel = k + 1 := ⟨fuel - 1, by omega⟩
      rw [subBraces, if_pos rfl, afterName_open (hbc rfl)]
      simp only
      rw [ih _ (by omega)]

theorem unhole_close (ps : List GlobPiece) (h : ']' ∉ globText ps) : ']' ∉ globText (ps.map unhole) := by
  induction ps with
  | nil => exact h
  | cons p ps ih =>
    cases p <;> simp_all [globText, unhole]

theorem upwards_in (items : List SetItem) (x : Char) : InSet (items.filter SetItem.upwards) x ↔ InSet items x := by
  unfold InSet
  simp only [List.mem_filter]
  constructor
  · rintro (h | ⟨a, b, h, h1, h2⟩)
    · exact .inl h.1
    · exact .inr ⟨a, b, h.1, h1, h2⟩
  · rintro (h | ⟨a, b, h, h1, h2⟩)
    · exact .inl ⟨h, rfl⟩
    · exact .inr ⟨a, b, ⟨h, by simpa [SetItem.upwards] using Char.le_trans h1 h2⟩, h1, h2⟩

theorem matchAll_class {g : Glob} (h : g = .never ∨ g = .any ∨ ∃ n r, g = .cls n r) (ps : List Glob) (x : Char)
    (r : List Char) : matchAll (g :: ps) [] = false ∧
      matchAll (g :: ps) (x :: r) = (Glob.takes g x && matchAll ps r) := by
  rcases h with rfl | rfl | ⟨n, rs, rfl⟩
  · exact ⟨rfl, by simp [matchAll, Glob.takes]⟩
  · exact ⟨rfl, by simp [matchAll, Glob.takes]⟩
  · exact ⟨rfl, by simp [matchAll, Glob.takes]⟩

theorem anyRange_iff (items : List SetItem) (x : Char) :
    ((items.map bounds).any fun r => decide (r.1 ≤ x) && decide (x ≤ r.2)) = true ↔ InSet items x := by
  simp only [List.any_map, List.any_eq_true, Function.comp, Bool.and_eq_true, decide_eq_true_eq]
  constructor
  · rintro ⟨i, hi, h1, h2⟩
    cases i with
    | char c =>
      have : c = x := Char.le_antisymm h1 h2
      subst this; exact .inl hi
    | range a b => exact .inr ⟨a, b, hi, h1, h2⟩
  · rintro (hi | ⟨a, b, hi, h1, h2⟩)
    · exact ⟨_, hi, Char.le_refl x, Char.le_refl x⟩
    · exact ⟨_, hi, h1, h2⟩

theorem match_glob (ps : List GlobPiece) (h : GlobOK ps) (fuel : Nat)
    (hf : (globText (ps.map unhole)).length ≤ fuel) (route : List Char) :
    Glob.matchAll (Glob.translate fuel (globText (ps.map unhole))) route = true ↔ Covers ps route := by
  induction ps generalizing fuel route with
  | nil =>
    have : Glob.translate fuel (globText []) = [] := by cases fuel <;> rfl
    rw [List.map_nil, this]
    simp only [Glob.matchAll, List.isEmpty_iff]
    constructor
    · rintro rfl; exact Covers.nil
    · intro h; cases h; rfl
  | cons p ps ih =>
    obtain ⟨hp, hbr, hbc, hps⟩ := h
    have ih := ih hps
    cases p with
    | text s =>
      simp only [List.map_cons, unhole, globText] at hf ⊢
      rw [translate_plain s _ (fun c hc => ⟨(hp c hc).1, (hp c hc).2.1, (hp c hc).2.2.1⟩) _ hf, matchAll_lits]
      constructor
      · rintro ⟨b, rfl, hb⟩
        exact Covers.text s ((ih _ (by simp at hf; omega) b).1 hb)
      · intro hfl
        cases hfl with
        | text _ hr => exact ⟨_, rfl, (ih _ (by simp at hf; omega) _).2 hr⟩
    | any =>
      simp only [List.map_cons, unhole, globText, List.length_cons] at hf ⊢
      obtain ⟨k, rfl⟩ : ∃ k, fuel = k + 1 := ⟨fuel - 1, by omega⟩
      rw [Glob.translate, if_neg (by decide), if_pos rfl]
      cases route with
      | nil => simp only [Glob.matchAll, Bool.false_eq_true, false_iff]; intro hfl; cases hfl
      | cons x r =>
        simp only [Glob.matchAll]
        rw [ih _ (by omega)]
        exact ⟨fun hr => Covers.any x hr, fun hfl => by cases hfl; assumption⟩
    | star =>
      simp only [List.map_cons, unhole, globText, List.length_cons] at hf ⊢
      rw [translate_star _ _ hf]
      simp only [Glob.matchAll]
      rw [starMatch_iff]
      constructor
      · rintro ⟨a, b, rfl, hb⟩
        exact Covers.star a ((ih _ (by omega) b).1 hb)
      · intro hfl
        cases hfl with
        | star v hr => exact ⟨v, _, rfl, (ih _ (by omega) _).2 hr⟩
    | set neg items =>
      simp only [List.map_cons, unhole, globText, List.length_cons] at hf ⊢
      obtain ⟨k, rfl⟩ : ∃ k, fuel = k + 1 := ⟨fuel - 1, by omega⟩
      rw [Glob.translate, if_neg (by decide), if_neg (by decide), if_pos rfl,
        splitClass_items neg items hp.1 hp.2.1 fun hn => (hp.2.2 hn).1]
      simp only
      obtain ⟨g, hg, hs, hx⟩ := classOf_items neg items hp.2.1 hp.2.2
      rw [hg]
      cases route with
      | nil =>
        rw [(matchAll_class hs _ 'a' []).1]
        simp only [Bool.false_eq_true, false_iff]; intro hfl; cases hfl
      | cons x r =>
        rw [(matchAll_class hs _ x r).2, Bool.and_eq_true, hx x]
        rw [ih _ (by simp at hf; omega)]
        have hx : ((List.any ((items.filter SetItem.upwards).map bounds) fun r => decide (r.1 ≤ x) && decide (x ≤ r.2)) != neg)
            = true ↔ (InSet items x ↔ neg = false) := by
          rw [← upwards_in, ← anyRange_iff]
          generalize (List.any ((items.filter SetItem.upwards).map bounds) fun r =>
            decide (r.1 ≤ x) && decide (x ≤ r.2)) = v
          cases v <;> cases neg <;> simp
        rw [hx]
        exact ⟨fun ⟨hc, hr⟩ => Covers.set x hc hr, fun hfl => by cases hfl; exact ⟨‹_›, ‹_›⟩⟩
    | placeholder n =>
      simp only [List.map_cons, unhole, globText, List.length_cons] at hf ⊢
      rw [translate_star _ _ hf]
      simp only [Glob.matchAll]
      rw [starMatch_iff]
      constructor
      · rintro ⟨a, b, rfl, hb⟩
        exact Covers.placeholder n a ((ih _ (by omega) b).1 hb)
      · intro hfl
        cases hfl with
        | placeholder _ v hr => exact ⟨v, _, rfl, (ih _ (by omega) _).2 hr⟩
    | bracket =>
      simp only [List.map_cons, unhole, globText, List.length_cons] at hf ⊢
      obtain ⟨k, rfl⟩ : ∃ k, fuel = k + 1 := ⟨fuel - 1, by omega⟩
      rw [Glob.translate, if_neg (by decide), if_neg (by decide), if_pos rfl, splitClass_open (unhole_close ps (hbr rfl))]
      simp only
      cases route with
      | nil => simp only [Glob.matchAll, Bool.false_eq_true, false_iff]; intro hfl; cases hfl
      | cons x r =>
        simp only [Glob.matchAll, Bool.and_eq_true, beq_iff_eq]
        rw [ih _ (by omega)]
        constructor
        · rintro ⟨rfl, hr⟩; exact Covers.bracket hr
        · intro hfl; cases hfl with
          | bracket hr => exact ⟨rfl, hr⟩
    | brace =>
      simp only [List.map_cons, unhole, globText, List.length_cons] at hf ⊢
      obtain ⟨k, rfl⟩ : ∃ k, fuel = k + 1 := ⟨fuel - 1, by omega⟩
      rw [Glob.translate, if_neg (by decide), if_neg (by decide), if_neg (by decide)]
      cases route with
      | nil => simp only [Glob.matchAll, Bool.false_eq_true, false_iff]; intro hfl; cases hfl
      | cons x r =>
        simp only [Glob.matchAll, Bool.and_eq_true, beq_iff_eq]
        rw [ih _ (by omega)]
        constructor
        · rintro ⟨rfl, hr⟩; exact Covers.brace hr
        · intro hfl; cases hfl with
          | brace hr => exact ⟨rfl, hr⟩

/-- C87: the key registered for a path with wildcards, sets and placeholders matches exactly the routes covered by the
path. -/
theorem C87_glob (ps : List GlobPiece) (h : GlobOK ps) (route : String) :
    fnmatch route (wildcard (String.ofList (globText ps))) = true ↔ Covers ps route.toList := by
  unfold fnmatch wildcard
  simp only [String.toList_ofList]
  rw [subBraces_glob ps h _ (le_refl _)]
  exact match_glob ps h _ (le_refl _) _

/-- C87: when that path is the only one registered, a request reaches its handler exactly if its route is the registered
key itself or is covered by the path; all others find no handler. -/
theorem C87_dispatch {H : Type} (ps : List GlobPiece) (h : GlobOK ps) (hd : H) (named : List String)
    (route : String) :
    let key := wildcard (String.ofList (globText ps))
    let reg : Registry H := { routes := [(key, hd)], named_routes := named }
    (reg.dispatch route = some hd ↔ route = key ∨ Covers ps route.toList) ∧
    (reg.dispatch route = none ↔ ¬ (route = key ∨ Covers ps route.toList)) := by
  intro key reg
  have hk := C87_glob ps h route
  have hd' : reg.dispatch route = if route = key ∨ fnmatch route key = true then some hd else none := by
    by_cases e : route = key
    · subst e
      have : Dict.get? [(key, hd)] key = some hd := by simp [Dict.get?]
      simp [Registry.dispatch, reg, this]
    · have : Dict.get? [(key, hd)] route = none := by simp [Dict.get?, Ne.symm e]
      simp [Registry.dispatch, reg, this, Registry.firstMatch, e]
  rw [hd', ← hk]
  by_cases c : route = key ∨ fnmatch route key = true
  · rw [if_pos c]; exact ⟨⟨fun _ => c, fun _ => rfl⟩, ⟨fun e => (by cases e), fun n => absurd c n⟩⟩
  · rw [if_neg c]; exact ⟨⟨fun e => (by cases e), fun n => absurd n c⟩, ⟨fun _ => c, fun _ => rfl⟩⟩

/-- C87: whatever else is registered, a request covered by a registered path finds a handler. -/
theorem C87_dispatched {H : Type} (reg : Registry H) (ps : List GlobPiece) (h : GlobOK ps) (hd : H)
    (hreg : (wildcard (String.ofList (globText ps)), hd) ∈ reg.routes) (route : String) (hf : Covers ps route.toList) :
    ∃ h', reg.dispatch route = some h' :=
  (C33_found_iff reg route).2 (.inr ⟨_, hreg, (C87_glob ps h route).2 hf⟩)

-- a range that goes downwards holds nothing: `[z-ab]` is `[b]`, `[!z-a]` is `?`, `[z-a]` matches nothing
example : fnmatch "b" "[z-ab]" = true ∧ fnmatch "c" "[z-ab]" = false ∧ fnmatch "c" "[!z-a]" = true ∧
    fnmatch "z" "[z-a]" = false ∧ fnmatch "m" "[z-aa-m]" = true := by decide +kernel

/-- The path of the example: `GET /v[0-9x]/?/{name}/[!_]*[]a-f--][end{`. -/
def samplePath : List GlobPiece :=
  [.text "GET /v".toList, .set false [.range '0' '9', .char 'x'], .text "/".toList, .any, .text "/".toList,
    .placeholder "name".toList, .text "/".toList, .set true [.char '_'], .star,
    .set false [.char ']', .range 'a' 'f', .char '-', .char '-'], .bracket, .text "end".toList, .brace]

theorem samplePath_ok : GlobOK samplePath := by
  simp only [samplePath, GlobOK, GlobPieceOK, SetOK]
  and_intros <;> trivial

example : String.ofList (globText samplePath) = "GET /v[0-9x]/?/{name}/[!_]*[]a-f--][end{" := by decide +kernel

example : Covers samplePath "GET /v7/k/some/name/abc][end{".toList ∧ Covers samplePath "GET /vx/k/n/bc-[end{".toList ∧ ¬ Covers samplePath "GET /v7/k/name/_abc-[end{".toList ∧
    ¬ Covers samplePath "GET /v7/k/name/abcg[end{".toList := by
  have k := fun r => C87_glob samplePath samplePath_ok r
  refine ⟨(k _).1 (by decide +kernel), (k _).1 (by decide +kernel), fun h => ?_, fun h => ?_⟩
  · exact absurd ((k _).2 h) (by decide +kernel)
  · exact absurd ((k _).2 h) (by decide +kernel)

example := C87_dispatch samplePath samplePath_ok 5 [] "GET /v7/k/some/name/abc][end{"

end Verif
