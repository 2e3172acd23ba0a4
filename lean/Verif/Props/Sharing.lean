import Verif.Spec.Sharing
import Verif.Props.Headers
import Verif.Lemmas.Host
/-!
# Objects and the defaults they share (C110)
-/

namespace Verif
variable {V : Type}

theorem put_objects (h : ObjHeap V) (r : ObjRef) (f : V → V) : (h.put r f).objects = h.objects := by
  unfold ObjHeap.put; split <;> rfl
theorem put_clock (h : ObjHeap V) (r : ObjRef) (f : V → V) : (h.put r f).clock = h.clock := by
  unfold ObjHeap.put; split <;> rfl

/-- The heap against the objects one thinks of. -/
structure HeapMatch (h : ObjHeap V) (objs : List (OwnObject V)) : Prop where
  len : h.objects.length = objs.length
  obj : ∀ (i : Nat) (k : Klass) (refs : Shared → ObjRef), h.objects[i]? = some (k, refs) →
    ∃ o, objs[i]? = some o ∧ o.klass = k ∧ ∀ a, (o.given a = false ∧ refs a = ObjRef.default a) ∨
      (o.given a = true ∧ ∃ n, n < h.clock ∧ refs a = ObjRef.created n a ∧ h.created n a = o.contents a)
  uniq : ∀ (i j : Nat) (k k' : Klass) (refs refs' : Shared → ObjRef) (n : Nat) (a : Shared),
    h.objects[i]? = some (k, refs) → h.objects[j]? = some (k', refs') →
    refs a = ObjRef.created n a → refs' a = ObjRef.created n a → i = j

theorem takes_mem {k : Klass} {a : Shared} (h : k.takes a = true) : a ∈ k.attributes := by
  cases k <;> cases a <;> first | (exact absurd h (by decide)) | decide

theorem match_construct (D : Shared → V) {h : ObjHeap V} {objs : List (OwnObject V)} (m : HeapMatch h objs) (k : Klass)
    (args : Shared → Option V) : HeapMatch (h.step (.construct k args)) (ownStep D objs (.construct k args)) := by
  obtain ⟨m1, m2, m3⟩ := m
  unfold ObjHeap.step ownStep
  refine ⟨by simp [m1], ?_, ?_⟩
  · intro i k' refs hi
    rw [list_getElem?_concat] at hi
    rw [list_getElem?_concat]
    by_cases hl : i = h.objects.length
    · rw [if_pos hl] at hi
      injection hi with hi
      injection hi with h1 h2
      subst h1 h2
      rw [if_pos (by omega)]
      refine ⟨_, rfl, rfl, fun a => ?_⟩
      unfold ObjHeap.initial
      by_cases hg : k.takes a = true ∧ (args a).isSome = true
      · rw [if_pos hg]
        refine Or.inr ⟨by simp [hg.1, hg.2], h.clock, Nat.lt_succ_self _, rfl, ?_⟩
        obtain ⟨v, hv⟩ := Option.isSome_iff_exists.1 hg.2
        simp [hg.1, hv]
      · rw [if_neg hg]
        refine Or.inl ⟨?_, rfl⟩
        by_cases ht : k.takes a = true
        · have : (args a).isSome = false := by
            simpa using fun hs => hg ⟨ht, hs⟩
          simp [this]
        · simp [Bool.eq_false_iff.2 ht]
    · rw [if_neg hl] at hi
      rw [if_neg (by omega)]
      obtain ⟨o, e1, e2, e3⟩ := m2 i k' refs hi
      refine ⟨o, e1, e2, fun a => ?_⟩
      rcases e3 a with e | ⟨g, n, hn, hr, hc⟩
      · exact Or.inl e
      · refine Or.inr ⟨g, n, by simp only; omega, hr, ?_⟩
        simp only [if_neg (show ¬ n = h.clock by omega)]
        exact hc
  · intro i j k1 k2 r1 r2 n a hi hj e1 e2
    simp only at hi hj
    rw [list_getElem?_concat] at hi hj
    have key : ∀ (j : Nat) (k2 : Klass) (r2 : Shared → ObjRef), h.objects[j]? = some (k2, r2) → r2 a = ObjRef.created n a →
        n < h.clock := by
      intro j k2 r2 hj e
      obtain ⟨o, -, -, e3⟩ := m2 j k2 r2 hj
      rcases e3 a with ⟨-, e'⟩ | ⟨-, n', hn, e', -⟩
      · rw [e] at e'; cases e'
      · rw [e] at e'; cases e'; exact hn
    have key2 : ∀ (k1 : Klass) (r1 : Shared → ObjRef), some (k, ObjHeap.initial h.clock k args) = some (k1, r1) →
        r1 a = ObjRef.created n a → n = h.clock := by
      intro k1 r1 hs e
      injection hs with hs
      injection hs with _ hs
      subst hs
      unfold ObjHeap.initial at e
      split at e
      · injection e with e _; exact e.symm
      · cases e
    by_cases hil : i = h.objects.length
    · by_cases hjl : j = h.objects.length
      · omega
      · rw [if_pos hil] at hi
        rw [if_neg hjl] at hj
        have := key j k2 r2 hj e2
        have := key2 k1 r1 hi e1
        omega
    · by_cases hjl : j = h.objects.length
      · rw [if_neg hil] at hi
        rw [if_pos hjl] at hj
        have := key i k1 r1 hi e1
        have := key2 k2 r2 hj e2
        omega
      · rw [if_neg hil] at hi
        rw [if_neg hjl] at hj
        exact m3 i j k1 k2 r1 r2 n a hi hj e1 e2

/-- A change in place of one attribute of one object. -/
theorem match_put {h : ObjHeap V} {objs : List (OwnObject V)} (m : HeapMatch h objs) (i : Nat) (k : Klass)
    (refs : Shared → ObjRef) (hi : h.objects[i]? = some (k, refs)) (a : Shared) (f : V → V) :
    HeapMatch (h.put (refs a) f) (objs.modify i fun o =>
      { o with contents := fun b => if b = a then f (o.contents b) else o.contents b }) := by
  obtain ⟨m1, m2, m3⟩ := m
  have hobj : (h.put (refs a) f).objects = h.objects := by unfold ObjHeap.put; split <;> rfl
  have hclk : (h.put (refs a) f).clock = h.clock := by unfold ObjHeap.put; split <;> rfl
  refine ⟨by rw [hobj, m1]; simp, ?_, ?_⟩
  · intro j k' refs' hj
    rw [hobj] at hj
    obtain ⟨o, e1, e2, e3⟩ := m2 j k' refs' hj
    by_cases hij : i = j
    · subst hij
      rw [hi] at hj
      injection hj with hj
      injection hj with h1 h2
      subst h1 h2
      rw [List.getElem?_modify_eq, e1]
      refine ⟨_, rfl, e2, fun b => ?_⟩
      rw [hclk]
      rcases e3 b with e | ⟨g, n, hn, hr, hc⟩
      · exact Or.inl e
      · refine Or.inr ⟨g, n, hn, hr, ?_⟩
        rcases e3 a with ⟨ga, ea⟩ | ⟨ga, na, hna, ea, ca⟩
        · have hba : b ≠ a := by
            rintro rfl
            rw [hr] at ea; cases ea
          rw [ea]
          simp only [ObjHeap.put, if_neg hba]
          exact hc
        · rw [ea]
          simp only [ObjHeap.put]
          by_cases hba : b = a
          · subst hba
            rw [hr] at ea
            injection ea with ea
            subst ea
            simp only [and_self, if_true, hc]
          · rw [if_neg (fun hx => hba hx.2), if_neg hba]
            exact hc
    · rw [List.getElem?_modify_ne _ _ hij]
      refine ⟨o, e1, e2, fun b => ?_⟩
      rw [hclk]
      rcases e3 b with e | ⟨g, n, hn, hr, hc⟩
      · exact Or.inl e
      · refine Or.inr ⟨g, n, hn, hr, ?_⟩
        cases hra : refs a with
        | default c => exact hc
        | created na c =>
          have hca : c = a := by
            obtain ⟨o', -, -, e3'⟩ := m2 i k refs hi
            rcases e3' a with ⟨-, e'⟩ | ⟨-, n', -, e', -⟩
            · rw [hra] at e'; cases e'
            · rw [hra] at e'; cases e'; rfl
          subst hca
          simp only [ObjHeap.put]
          rw [if_neg]
          · exact hc
          · rintro ⟨rfl, rfl⟩
            exact hij (m3 i j k k' refs refs' n b hi hj hra hr)
  · intro i' j' k1 k2 r1 r2 n b h1 h2
    rw [hobj] at h1 h2
    exact m3 i' j' k1 k2 r1 r2 n b h1 h2

theorem match_tick {h : ObjHeap V} {objs : List (OwnObject V)} (m : HeapMatch h objs) :
    HeapMatch { h with clock := h.clock + 1 } objs := by
  obtain ⟨m1, m2, m3⟩ := m
  refine ⟨m1, fun i k refs hi => ?_, m3⟩
  obtain ⟨o, e1, e2, e3⟩ := m2 i k refs hi
  refine ⟨o, e1, e2, fun a => ?_⟩
  rcases e3 a with e | ⟨g, n, hn, hr, hc⟩
  · exact Or.inl e
  · exact Or.inr ⟨g, n, by simp only; omega, hr, hc⟩

/-- `HeapMatch` sees only the contents of attributes that are given, so equal objects otherwise will do. -/
theorem match_congr {h : ObjHeap V} {objs objs' : List (OwnObject V)} (m : HeapMatch h objs) (hl : objs.length = objs'.length)
    (hc : ∀ (i : Nat) (o : OwnObject V), objs[i]? = some o → ∃ o', objs'[i]? = some o' ∧ o'.klass = o.klass ∧
      o'.given = o.given ∧ ∀ a, o.given a = true → o'.contents a = o.contents a) : HeapMatch h objs' := by
  obtain ⟨m1, m2, m3⟩ := m
  refine ⟨by omega, fun i k refs hi => ?_, m3⟩
  obtain ⟨o, e1, e2, e3⟩ := m2 i k refs hi
  obtain ⟨o', f1, f2, f3, f4⟩ := hc i o e1
  refine ⟨o', f1, f2.trans e2, fun a => ?_⟩
  rw [f3]
  rcases e3 a with e | ⟨g, n, hn, hr, hc⟩
  · exact Or.inl e
  · exact Or.inr ⟨g, n, hn, hr, by rw [hc, f4 a g]⟩

theorem match_change (D : Shared → V) {h : ObjHeap V} {objs : List (OwnObject V)} (m : HeapMatch h objs) (i : Nat)
    (a : Shared) (f : V → V) : HeapMatch (h.step (.change i a f)) (ownStep D objs (.change i a f)) := by
  have hm1 := m.len
  unfold ObjHeap.step ownStep
  cases hi : h.objects[i]? with
  | none =>
    simp only [hi]
    have : objs.length ≤ i := by
      have := List.getElem?_eq_none_iff.1 hi
      omega
    rw [List.modify_eq_self this]
    exact match_tick m
  | some p =>
    obtain ⟨k, refs⟩ := p
    obtain ⟨o, e1, e2, e3⟩ := m.obj i k refs hi
    simp only [hi]
    by_cases ha : a ∈ k.attributes
    · rw [if_pos ha]
      have := match_tick (match_put m i k refs hi a f)
      rw [put_clock] at this
      refine match_congr this (by simp) ?_
      intro j o' hj
      by_cases hij : i = j
      · subst hij
        rw [List.getElem?_modify_eq, e1] at hj
        rw [List.getElem?_modify_eq, e1]
        injection hj with hj
        subst hj
        refine ⟨_, rfl, rfl, rfl, fun b _ => ?_⟩
        simp [e2, ha]
      · rw [List.getElem?_modify_ne _ _ hij] at hj
        rw [List.getElem?_modify_ne _ _ hij]
        exact ⟨o', hj, rfl, rfl, fun _ _ => rfl⟩
    · rw [if_neg ha]
      refine match_congr (match_tick m) (by simp) ?_
      intro j o' hj
      by_cases hij : i = j
      · subst hij
        rw [e1] at hj
        injection hj with hj
        subst hj
        rw [List.getElem?_modify_eq, e1]
        refine ⟨_, rfl, rfl, rfl, fun b _ => ?_⟩
        simp [e2, ha]
      · rw [List.getElem?_modify_ne _ _ hij]
        exact ⟨o', hj, rfl, rfl, fun _ _ => rfl⟩

/-- The attributes that are read are replaced. -/
theorem match_replace {h : ObjHeap V} {objs : List (OwnObject V)} (m : HeapMatch h objs) (i : Nat) (k : Klass)
    (refs : Shared → ObjRef) (hi : h.objects[i]? = some (k, refs)) (p : Shared → Bool) (values : Shared → V) :
    HeapMatch
      { defaults := h.defaults
        created := fun m a => if m = h.clock then values a else h.created m a
        clock := h.clock + 1
        objects := h.objects.set i (k, fun a => if p a then .created h.clock a else refs a) }
      (objs.modify i fun o =>
        { o with contents := fun b => if p b then values b else o.contents b, given := fun b => o.given b || p b }) := by
  obtain ⟨m1, m2, m3⟩ := m
  have hlt : i < h.objects.length := by
    by_contra hc
    rw [List.getElem?_eq_none (by omega)] at hi
    cases hi
  have hset : ∀ j, (h.objects.set i (k, fun a => if p a then ObjRef.created h.clock a else refs a))[j]? =
      if i = j then some (k, fun a => if p a then ObjRef.created h.clock a else refs a) else h.objects[j]? := by
    intro j
    rw [List.getElem?_set]
    by_cases hij : i = j
    · rw [if_pos hij, if_pos hij, if_pos hlt]
    · rw [if_neg hij, if_neg hij]
  have hold : ∀ (j : Nat) (k2 : Klass) (r2 : Shared → ObjRef) (n : Nat) (a : Shared), h.objects[j]? = some (k2, r2) →
      r2 a = ObjRef.created n a → n < h.clock := by
    intro j k2 r2 n a hj e
    obtain ⟨o, -, -, e3⟩ := m2 j k2 r2 hj
    rcases e3 a with ⟨-, e'⟩ | ⟨-, n', hn, e', -⟩
    · rw [e] at e'; cases e'
    · rw [e] at e'; cases e'; exact hn
  refine ⟨by simp [m1], ?_, ?_⟩
  · intro j k' refs' hj
    simp only at hj
    rw [hset] at hj
    by_cases hij : i = j
    · subst hij
      rw [if_pos rfl] at hj
      injection hj with hj
      injection hj with h1 h2
      subst h1 h2
      obtain ⟨o, e1, e2, e3⟩ := m2 i k refs hi
      rw [List.getElem?_modify_eq, e1]
      refine ⟨_, rfl, e2, fun b => ?_⟩
      by_cases hp : p b = true
      · refine Or.inr ⟨by simp [hp], h.clock, Nat.lt_succ_self _, by simp [hp], by simp [hp]⟩
      · rcases e3 b with ⟨g, e⟩ | ⟨g, n, hn, hr, hc⟩
        · exact Or.inl ⟨by simp [hp, g], by simp [hp, e]⟩
        · refine Or.inr ⟨by simp [g], n, by simp only; omega, by simp [hp, hr], ?_⟩
          simp only [if_neg (show ¬ n = h.clock by omega), if_neg hp]
          exact hc
    · rw [if_neg hij] at hj
      rw [List.getElem?_modify_ne _ _ hij]
      obtain ⟨o, e1, e2, e3⟩ := m2 j k' refs' hj
      refine ⟨o, e1, e2, fun b => ?_⟩
      rcases e3 b with e | ⟨g, n, hn, hr, hc⟩
      · exact Or.inl e
      · refine Or.inr ⟨g, n, by simp only; omega, hr, ?_⟩
        simp only [if_neg (show ¬ n = h.clock by omega)]
        exact hc
  · intro i' j' k1 k2 r1 r2 n b h1 h2 e1 e2
    simp only at h1 h2
    rw [hset] at h1 h2
    by_cases hii : i = i'
    · by_cases hjj : i = j'
      · omega
      · exfalso
        rw [if_pos hii] at h1
        rw [if_neg hjj] at h2
        injection h1 with h1
        injection h1 with h3 h4
        subst h4
        have hn := hold j' k2 r2 n b h2 e2
        by_cases hp : p b = true
        · simp only [hp, if_true] at e1
          injection e1 with e1 _
          omega
        · simp only [hp] at e1
          have := m3 i j' k k2 refs r2 n b hi h2 e1 e2
          omega
    · by_cases hjj : i = j'
      · exfalso
        rw [if_pos hjj] at h2
        rw [if_neg hii] at h1
        injection h2 with h2
        injection h2 with h3 h4
        subst h4
        have hn := hold i' k1 r1 n b h1 e1
        by_cases hp : p b = true
        · simp only [hp, if_true] at e2
          injection e2 with e2 _
          omega
        · simp only [hp] at e2
          have := m3 i i' k k1 refs r1 n b hi h1 e2 e1
          omega
      · rw [if_neg hii] at h1
        rw [if_neg hjj] at h2
        exact m3 i' j' k1 k2 r1 r2 n b h1 h2 e1 e2

theorem match_read (D : Shared → V) {h : ObjHeap V} {objs : List (OwnObject V)} (m : HeapMatch h objs) (i : Nat)
    (varhead : Bool) (values : Shared → V) (update : V → V) :
    HeapMatch (h.step (.read i varhead values update)) (ownStep D objs (.read i varhead values update)) := by
  have hm1 := m.len
  unfold ObjHeap.step ownStep
  cases hi : h.objects[i]? with
  | none =>
    simp only [hi]
    have : objs.length ≤ i := by
      have := List.getElem?_eq_none_iff.1 hi
      omega
    rw [List.modify_eq_self this]
    exact match_tick m
  | some q =>
    obtain ⟨k, refs⟩ := q
    obtain ⟨o, e1, e2, e3⟩ := m.obj i k refs hi
    simp only [hi]
    by_cases ha : Shared.settings ∈ k.attributes
    · simp only [if_pos ha]
      have m' := match_put m i k refs hi .settings update
      have hi' : (h.put (refs .settings) update).objects[i]? = some (k, refs) := by rw [put_objects]; exact hi
      have m'' := match_replace m' i k refs hi' (fun a => decide (a.readEffect varhead = .replace)) values
      simp only [decide_eq_true_eq, put_objects, put_clock] at m''
      refine match_congr m'' (by simp) ?_
      intro j o' hj
      by_cases hij : i = j
      · subst hij
        rw [List.getElem?_modify_eq, List.getElem?_modify_eq, e1] at hj
        rw [List.getElem?_modify_eq, e1]
        injection hj with hj
        subst hj
        refine ⟨_, rfl, rfl, rfl, fun b _ => ?_⟩
        cases b <;> cases varhead <;> simp [Shared.readEffect, ha, e2]
      · rw [List.getElem?_modify_ne _ _ hij, List.getElem?_modify_ne _ _ hij] at hj
        rw [List.getElem?_modify_ne _ _ hij]
        exact ⟨o', hj, rfl, rfl, fun _ _ => rfl⟩
    · simp only [if_neg ha]
      have m'' := match_replace m i k refs hi (fun a => decide (a.readEffect varhead = .replace)) values
      simp only [decide_eq_true_eq] at m''
      refine match_congr m'' (by simp) ?_
      intro j o' hj
      by_cases hij : i = j
      · subst hij
        rw [List.getElem?_modify_eq, e1] at hj
        rw [List.getElem?_modify_eq, e1]
        injection hj with hj
        subst hj
        refine ⟨_, rfl, rfl, rfl, fun b _ => ?_⟩
        cases b <;> cases varhead <;> simp [Shared.readEffect, ha, e2]
      · rw [List.getElem?_modify_ne _ _ hij] at hj
        rw [List.getElem?_modify_ne _ _ hij]
        exact ⟨o', hj, rfl, rfl, fun _ _ => rfl⟩

theorem match_step (D : Shared → V) {h : ObjHeap V} {objs : List (OwnObject V)} (m : HeapMatch h objs) (op : ObjOp V) :
    HeapMatch (h.step op) (ownStep D objs op) := by
  cases op with
  | construct k args => exact match_construct D m k args
  | change i a f => exact match_change D m i a f
  | read i varhead values update => exact match_read D m i varhead values update

theorem match_run (D : Shared → V) (ops : List (ObjOp V)) : ∀ {h : ObjHeap V} {objs : List (OwnObject V)}, HeapMatch h objs →
    HeapMatch (h.run ops) (ops.foldl (ownStep D) objs) := by
  induction ops with
  | nil => intro h objs m; exact m
  | cons op ops ih => intro h objs m; exact ih (match_step D m op)

theorem match_fresh (D : Shared → V) (ops : List (ObjOp V)) :
    HeapMatch ((ObjHeap.fresh D).run ops) (ownObjects D ops) :=
  match_run D ops (h := ObjHeap.fresh D) ⟨rfl, by simp [ObjHeap.fresh], by simp [ObjHeap.fresh]⟩

/-- The default object after a change in place. -/
theorem put_default {h : ObjHeap V} {objs : List (OwnObject V)} (m : HeapMatch h objs) (i : Nat) (k : Klass)
    (refs : Shared → ObjRef) (hi : h.objects[i]? = some (k, refs)) (o : OwnObject V) (ho : objs[i]? = some o)
    (a b : Shared) (f : V → V) :
    (h.put (refs b) f).defaults a = if b = a ∧ o.given a = false then f (h.defaults a) else h.defaults a := by
  obtain ⟨o', e1, -, e3⟩ := m.obj i k refs hi
  rw [ho] at e1
  injection e1 with e1
  subst e1
  rcases e3 b with ⟨g, e⟩ | ⟨g, n, -, e, -⟩
  · rw [e]
    simp only [ObjHeap.put]
    by_cases hab : a = b
    · subst hab; simp [g]
    · simp [hab, Ne.symm hab]
  · rw [e]
    simp only [ObjHeap.put]
    rw [if_neg]
    rintro ⟨rfl, g'⟩
    rw [g] at g'; cases g'

theorem defaults_run (D : Shared → V) (a : Shared) (ops : List (ObjOp V)) : ∀ {h : ObjHeap V} {objs : List (OwnObject V)},
    HeapMatch h objs → (h.run ops).defaults a = (changesOfDefault a objs D ops).foldl (fun v f => f v) (h.defaults a) := by
  induction ops with
  | nil => intro h objs m; rfl
  | cons op ops ih =>
    intro h objs m
    show ((h.step op).run ops).defaults a = _
    rw [ih (match_step D m op), changesOfDefault, List.foldl_append]
    congr 1
    cases op with
    | construct k args => rfl
    | change i b f =>
      simp only [ObjHeap.step, changeOf]
      cases hi : h.objects[i]? with
      | none =>
        have : objs[i]? = none := by
          rw [List.getElem?_eq_none_iff] at hi ⊢
          rw [← m.len]; exact hi
        simp [this]
      | some q =>
        obtain ⟨k, refs⟩ := q
        obtain ⟨o, e1, e2, e3⟩ := m.obj i k refs hi
        simp only [e1, Option.any_some]
        by_cases hb : b ∈ k.attributes
        · simp only [if_pos hb]
          rw [put_default m i k refs hi o e1 a b f]
          by_cases hba : b = a
          · subst hba
            cases hg : o.given b <;> simp [e2, hb]
          · simp [hba]
        · simp only [if_neg hb]
          rw [if_neg]
          · rfl
          · rintro ⟨rfl, hx⟩
            simp [e2, hb] at hx
    | read i varhead values update =>
      simp only [ObjHeap.step, changeOf]
      cases hi : h.objects[i]? with
      | none =>
        have : objs[i]? = none := by
          rw [List.getElem?_eq_none_iff] at hi ⊢
          rw [← m.len]; exact hi
        simp [this]
      | some q =>
        obtain ⟨k, refs⟩ := q
        obtain ⟨o, e1, e2, e3⟩ := m.obj i k refs hi
        simp only [e1, Option.any_some]
        by_cases hb : Shared.settings ∈ k.attributes
        · simp only [if_pos hb]
          rw [put_default m i k refs hi o e1 a .settings update]
          by_cases hba : Shared.settings = a
          · subst hba
            cases hg : o.given .settings <;> simp [e2, hb]
          · simp [hba, Ne.symm hba]
        · simp only [if_neg hb]
          rw [if_neg]
          · rfl
          · rintro ⟨rfl, hx⟩
            simp [e2, hb] at hx

theorem run_objects (D : Shared → V) (ops : List (ObjOp V)) (i : Nat) :
    (((ObjHeap.fresh D).run ops).objects[i]? = none ∧ (ownObjects D ops)[i]? = none) ∨
    ∃ k refs o, ((ObjHeap.fresh D).run ops).objects[i]? = some (k, refs) ∧ (ownObjects D ops)[i]? = some o ∧ o.klass = k ∧
      ∀ a, (o.given a = false ∧ refs a = ObjRef.default a) ∨
      (o.given a = true ∧ ∃ n, refs a = ObjRef.created n a ∧ ((ObjHeap.fresh D).run ops).created n a = o.contents a) := by
  have m := match_fresh D ops
  cases hi : ((ObjHeap.fresh D).run ops).objects[i]? with
  | none =>
    left
    refine ⟨rfl, ?_⟩
    rw [List.getElem?_eq_none_iff] at hi ⊢
    rw [← m.len]; exact hi
  | some q =>
    obtain ⟨k, refs⟩ := q
    obtain ⟨o, e1, e2, e3⟩ := m.obj i k refs hi
    refine Or.inr ⟨k, refs, o, rfl, e1, e2, fun a => ?_⟩
    rcases e3 a with e | ⟨g, n, -, hr, hc⟩
    · exact Or.inl e
    · exact Or.inr ⟨g, n, hr, hc⟩

/-- C110, the part that holds: an attribute that was given to the constructor, or has been read from a stream since, has exactly
the contents expected of it, whatever is done with all other objects. -/
theorem C110_given_partial (D : Shared → V) (ops : List (ObjOp V)) (i : Nat) (a : Shared) (h : isGiven D ops i a = true) :
    ((ObjHeap.fresh D).run ops).get i a = expectedContents D ops i a := by
  unfold isGiven at h
  unfold ObjHeap.get expectedContents
  rcases run_objects D ops i with ⟨h1, h2⟩ | ⟨k, refs, o, h1, h2, h3, h4⟩
  · rw [h1, h2]; rfl
  · rw [h2] at h
    simp only [h1, h2, Option.bind_some, h3]
    simp only [Option.any_some] at h
    rcases h4 a with ⟨g, -⟩ | ⟨g, n, hr, hc⟩
    · rw [g] at h; cases h
    · rw [hr]
      simp only [ObjHeap.contents, hc]

/-- C110, exactly what the other attributes contain: the default with all changes that were made to it through any object. -/
theorem C110_default (D : Shared → V) (ops : List (ObjOp V)) (i : Nat) (a : Shared) (h : isGiven D ops i a = false)
    (ha : (expectedContents D ops i a).isSome) :
    ((ObjHeap.fresh D).run ops).get i a = some ((changesOfDefault a [] D ops).foldl (fun v f => f v) (D a)) := by
  unfold isGiven at h
  unfold expectedContents at ha
  unfold ObjHeap.get
  rcases run_objects D ops i with ⟨h1, h2⟩ | ⟨k, refs, o, h1, h2, h3, h4⟩
  · rw [h2] at ha; cases ha
  · rw [h2] at h ha
    simp only [Option.any_some] at h
    simp only [Option.bind_some, h3] at ha
    have hk : a ∈ k.attributes := by
      by_contra hc
      rw [if_neg hc] at ha; cases ha
    simp only [h1, if_pos hk]
    rcases h4 a with ⟨-, g⟩ | ⟨g, -⟩
    · rw [g]
      simp only [ObjHeap.contents]
      rw [defaults_run D a ops (h := ObjHeap.fresh D) (objs := []) ⟨rfl, by simp [ObjHeap.fresh], by simp [ObjHeap.fresh]⟩]
      rfl
    · rw [h] at g; cases g

/-- C110 is violated for every one of these attributes: of two objects constructed without it, of classes `k` and `k'` that have it,
a change made to the one is a change of the other. -/
theorem C110_violated (D : Shared → V) (a : Shared) (k k' : Klass) (hk : a ∈ k.attributes) (hk' : a ∈ k'.attributes)
    (f : V → V) :
    let ops : List (ObjOp V) := [.construct k fun _ => none, .construct k' fun _ => none, .change 0 a f]
    ((ObjHeap.fresh D).run ops).get 1 a = some (f (D a)) ∧ expectedContents D ops 1 a = some (D a) := by
  refine ⟨?_, ?_⟩
  · simp [ObjHeap.run, ObjHeap.step, ObjHeap.fresh, ObjHeap.get, ObjHeap.initial, hk, hk', ObjHeap.put, ObjHeap.contents]
  · simp [expectedContents, ownObjects, ownStep, hk']

/-- C110: if nothing was changed in place through an object the attribute had not been given to, every object has what is
expected of it. -/
theorem C110_unchanged_partial (D : Shared → V) (ops : List (ObjOp V)) (i : Nat) (a : Shared)
    (h : changesOfDefault a [] D ops = []) : ((ObjHeap.fresh D).run ops).get i a = expectedContents D ops i a := by
  cases hg : isGiven D ops i a with
  | true => exact C110_given_partial D ops i a hg
  | false =>
    cases he : expectedContents D ops i a with
    | none =>
      unfold expectedContents at he
      unfold ObjHeap.get
      rcases run_objects D ops i with ⟨h1, h2⟩ | ⟨k, refs, o, h1, h2, h3, h4⟩
      · rw [h1]
      · rw [h2] at he
        simp only [Option.bind_some, h3] at he
        have hk : ¬ a ∈ k.attributes := by
          intro hc
          rw [if_pos hc] at he; cases he
        simp only [h1, if_neg hk]
    | some v =>
      rw [C110_default D ops i a hg (by rw [he]; rfl), h]
      have key : ∀ (ops : List (ObjOp V)) (objs : List (OwnObject V)),
          (∀ (i : Nat) (o : OwnObject V), objs[i]? = some o → a ∈ o.klass.attributes → o.given a = false → o.contents a = D a) →
          changesOfDefault a objs D ops = [] →
          ∀ (i : Nat) (o : OwnObject V), (ops.foldl (ownStep D) objs)[i]? = some o → a ∈ o.klass.attributes →
            o.given a = false → o.contents a = D a := by
        intro ops
        induction ops with
        | nil => intro objs h0 _; exact h0
        | cons op ops ih =>
          intro objs h0 hc
          rw [changesOfDefault, List.append_eq_nil_iff] at hc
          refine ih (ownStep D objs op) ?_ hc.2
          have hc1 := hc.1
          clear hc ih
          intro j o hj hk hgv
          cases op with
          | construct k args =>
            unfold ownStep at hj
            rw [list_getElem?_concat] at hj
            by_cases hl : j = objs.length
            · rw [if_pos hl] at hj
              injection hj with hj
              subst hj
              simp only at hgv ⊢
              by_cases ht : k.takes a = true
              · rw [if_pos ht]
                rw [ht, Bool.true_and] at hgv
                rw [Option.isSome_eq_false_iff, Option.isNone_iff_eq_none] at hgv
                rw [hgv]; rfl
              · rw [if_neg ht]
            · rw [if_neg hl] at hj
              exact h0 j o hj hk hgv
          | change l b f =>
            unfold ownStep at hj
            by_cases hlj : l = j
            · subst hlj
              rw [List.getElem?_modify_eq] at hj
              cases hl : objs[l]? with
              | none => rw [hl] at hj; cases hj
              | some o' =>
                rw [hl] at hj
                injection hj with hj
                subst hj
                simp only at hk hgv ⊢
                rw [if_neg]
                · exact h0 l o' hl hk hgv
                · rintro ⟨rfl, -⟩
                  simp [changeOf, hl, hk, hgv] at hc1
            · rw [List.getElem?_modify_ne _ _ hlj] at hj
              exact h0 j o hj hk hgv
          | read l varhead values update =>
            unfold ownStep at hj
            by_cases hlj : l = j
            · subst hlj
              rw [List.getElem?_modify_eq] at hj
              cases hl : objs[l]? with
              | none => rw [hl] at hj; cases hj
              | some o' =>
                rw [hl] at hj
                injection hj with hj
                subst hj
                simp only [Bool.or_eq_false_iff, decide_eq_false_iff_not] at hk hgv ⊢
                cases hr : a.readEffect varhead with
                | replace => exact absurd hr hgv.2
                | keep => simp only; exact h0 l o' hl hk hgv.1
                | inPlace =>
                  have hs : a = .settings := by
                    cases a <;> cases varhead <;> simp [Shared.readEffect] at hr ⊢
                  subst hs
                  simp [changeOf, hl, hk, hgv.1] at hc1
            · rw [List.getElem?_modify_ne _ _ hlj] at hj
              exact h0 j o hj hk hgv
      unfold expectedContents at he
      unfold isGiven at hg
      cases ho : (ownObjects D ops)[i]? with
      | none => rw [ho] at he; cases he
      | some o =>
        rw [ho] at he hg
        simp only [Option.bind_some] at he
        simp only [Option.any_some] at hg
        have hk : a ∈ o.klass.attributes := by
          by_contra hc
          rw [if_neg hc] at he; cases he
        rw [if_pos hk] at he
        rw [← he]
        exact congrArg some (key ops [] (by simp) h i o ho hk hg).symm

/-- Two nodes, one with roles of its own, and an extension node, with roles as texts: the program of the examples below. -/
def sharingSample : List (ObjOp (List String)) := [
  .construct .node fun _ => none,
  .construct .node fun a => if a = .nodeRoles then some ["data"] else none,
  .construct .extensionNode fun _ => none,
  .change 0 .nodeRoles fun l => l ++ ["ingest"],
  .change 1 .nodeRoles fun l => l ++ ["ml"],
  .construct .settings fun _ => none,
  .construct .settings fun _ => none,
  .read 3 true (fun _ => []) fun l => l ++ ["path"]]

-- the roles given to the second node are its own, and changes are kept
example : isGiven (fun _ => []) sharingSample 1 .nodeRoles = true ∧
    ((ObjHeap.fresh fun _ => []).run sharingSample).get 1 .nodeRoles = some ["data", "ml"] := by decide +kernel
-- the roles of the extension node were changed through the first node
example : isGiven (fun _ => []) sharingSample 2 .nodeRoles = false ∧
    ((ObjHeap.fresh fun _ => []).run sharingSample).get 2 .nodeRoles = some ["ingest"] ∧
    expectedContents (fun _ => []) sharingSample 2 .nodeRoles = some [] := by decide +kernel
-- settings that were read show up in settings that were not
example : ((ObjHeap.fresh fun _ => []).run sharingSample).get 4 .settings = some ["path"] ∧
    expectedContents (fun _ => []) sharingSample 4 .settings = some [] ∧
    (changesOfDefault .settings [] (fun _ => []) sharingSample).length = 1 := by decide +kernel
-- nobody changed the attributes of the nodes: they are as expected
example : (changesOfDefault .nodeAttributes [] (fun _ => []) sharingSample).length = 0 ∧
    ((ObjHeap.fresh fun _ => []).run sharingSample).get 0 .nodeAttributes = some [] := by decide +kernel
-- a task id is shared by requests of different classes
example : Shared.parentTaskId ∈ Klass.restRequest.attributes ∧ Shared.parentTaskId ∈ Klass.transportRequest.attributes := by
  decide

section
open Py

theorem message_read_variable {s s' m m' : OutboundMessage} {h : TcpHeader} {input x x' : Bytes}
    (hm : s.readFrom (some h) input = .ok (m, x)) (hm' : s'.readFrom (some h) input = .ok (m', x')) :
    m.tcp_header = h ∧ m'.tcp_header = h ∧ x = x' ∧ (h.variable_header_size > 0 → m.variable_bytes = m'.variable_bytes) := by
  unfold OutboundMessage.readFrom at hm hm'
  obtain ⟨h1, y, e, hm⟩ := Reader.bind_eq_ok.1 hm
  obtain ⟨h1', y', e', hm'⟩ := Reader.bind_eq_ok.1 hm'
  have e : (Except.ok (h, input) : Except Err _) = .ok (h1, y) := e
  have e' : (Except.ok (h, input) : Except Err _) = .ok (h1', y') := e'
  cases e; cases e'
  obtain ⟨c, z, f, hm⟩ := Reader.bind_eq_ok.1 hm
  obtain ⟨c', z', f', hm'⟩ := Reader.bind_eq_ok.1 hm'
  rw [f] at f'; cases f'
  by_cases hv : h.variable_header_size > 0
  · rw [if_pos hv] at hm hm'
    obtain ⟨vb, z, f, hm⟩ := Reader.bind_eq_ok.1 hm
    obtain ⟨vb', z', f', hm'⟩ := Reader.bind_eq_ok.1 hm'
    rw [f] at f'; cases f'
    have hm : (Except.ok ({ s with tcp_header := h, ctx := c, variable_bytes := some vb }, z) : Except Err _) = .ok (m, x) := hm
    have hm' : (Except.ok ({ s' with tcp_header := h, ctx := c, variable_bytes := some vb }, z) : Except Err _) = .ok (m', x') := hm'
    cases hm; cases hm'
    exact ⟨rfl, rfl, rfl, fun _ => rfl⟩
  · rw [if_neg hv] at hm hm'
    have hm : (Except.ok ({ s with tcp_header := h, ctx := c }, z) : Except Err _) = .ok (m, x) := hm
    have hm' : (Except.ok ({ s' with tcp_header := h, ctx := c }, z) : Except Err _) = .ok (m', x') := hm'
    cases hm; cases hm'
    exact ⟨rfl, rfl, rfl, fun h => absurd h hv⟩

/-- C110: what `read_from` does with the features is what the table says: kept features stay as they were, replaced ones do not
depend on what was there. -/
theorem C110_features {self self' r r' : OutboundRequest} {h : TcpHeader} {input rest rest' : Bytes}
    (hr : self.readFrom (some h) input = .ok (r, rest)) (hr' : self'.readFrom (some h) input = .ok (r', rest')) :
    (Shared.requestFeatures.readEffect (decide (h.variable_header_size > 0)) = .keep → r.features = self.features) ∧
    (Shared.requestFeatures.readEffect (decide (h.variable_header_size > 0)) = .replace → r.features = r'.features) ∧
    Shared.requestFeatures.readEffect (decide (h.variable_header_size > 0)) ≠ .inPlace := by
  unfold OutboundRequest.readFrom at hr hr'
  obtain ⟨c, y, e, hr⟩ := Reader.bind_eq_ok.1 hr
  obtain ⟨c', y', e', hr'⟩ := Reader.bind_eq_ok.1 hr'
  obtain ⟨t1, t2, hy, hv⟩ := message_read_variable e e'
  rw [t1] at hr
  rw [t2] at hr'
  by_cases h0 : h.variable_header_size > 0
  · rw [if_pos h0] at hr hr'
    rw [hv h0, hy] at hr
    obtain ⟨q, z, f, hr⟩ := Reader.bind_eq_ok.1 hr
    obtain ⟨q', z', f', hr'⟩ := Reader.bind_eq_ok.1 hr'
    rw [f] at f'; cases f'
    have hr : (Except.ok (({ c with features := q.1, action := q.2 } : OutboundRequest), z) : Except Err _) = .ok (r, rest) := hr
    have hr' : (Except.ok (({ c' with features := q.1, action := q.2 } : OutboundRequest), z) : Except Err _) = .ok (r', rest') := hr'
    cases hr; cases hr'
    simp [Shared.readEffect, h0]
  · rw [if_neg h0] at hr
    have hr : (Except.ok (({ c with features := self.features, action := self.action } : OutboundRequest), y) : Except Err _) =
      .ok (r, rest) := hr
    cases hr
    simp [Shared.readEffect, h0]

/-- C110: and so for responses. -/
theorem C110_response_features {self r : OutboundResponse} {h : TcpHeader} {input rest : Bytes} (varhead : Bool)
    (hr : self.readFrom (some h) input = .ok (r, rest)) :
    Shared.responseFeatures.readEffect varhead = .keep ∧ r.features = self.features := by
  unfold OutboundResponse.readFrom at hr
  obtain ⟨c, y, e, hr⟩ := Reader.bind_eq_ok.1 hr
  have hr : (Except.ok (({ c with features := self.features } : OutboundResponse), y) : Except Err _) = .ok (r, rest) := hr
  cases hr
  exact ⟨rfl, rfl⟩

end

example := C110_given_partial (fun _ => []) sharingSample 1 .nodeRoles (by decide +kernel)
example := C110_default (fun _ => []) sharingSample 2 .nodeRoles (by decide +kernel) (by decide +kernel)
example := C110_violated (fun _ => ([] : List Nat)) .parentTaskId .restRequest .transportRequest (by decide) (by decide) (5 :: ·)
def sharedHeader : TcpHeader := (requestIn sampleTcpFrame).tcp_header
def sharedRead : OutboundRequest × Bytes := ((blankReq.readFrom (some sharedHeader) (sampleTcpFrame.drop 19)).toOption.getD (blankReq, []))
theorem shared_read : blankReq.readFrom (some sharedHeader) (sampleTcpFrame.drop 19) = .ok (sharedRead.1, sharedRead.2) := by
  decide +kernel
example := C110_features shared_read shared_read
def sharedAnswerHeader : TcpHeader := (responseIn (sampleAck true 3)).tcp_header
def sharedAnswer : OutboundResponse × Bytes :=
  ((blankResp.readFrom (some sharedAnswerHeader) ((sampleAck true 3).drop 19)).toOption.getD (blankResp, []))
theorem shared_answer : blankResp.readFrom (some sharedAnswerHeader) ((sampleAck true 3).drop 19) =
    .ok (sharedAnswer.1, sharedAnswer.2) := by decide +kernel
example := C110_response_features true shared_answer

end Verif
