import Verif.Props.Json
/-!
# C40, exactly: for which actions the not-found body is JSON, quotation marks included
-/

namespace Verif
open Json

/-- White space, as a test. -/
def wsB (c : Char) : Bool := c = ' ' || c = '\t' || c = '\n' || c = '\r'

theorem wsB_of_mem {w : List Char} (h : IsWs w) {c : Char} (hc : c ∈ w) : wsB c = true := by
  rcases h c hc with rfl | rfl | rfl | rfl <;> decide

theorem ws_nil_of_head {w l : List Char} {c : Char} {r : List Char} (h : IsWs w) (e : w ++ l = c :: r)
    (hc : wsB c = false) : w = [] := by
  cases w with
  | nil => rfl
  | cons a w =>
    simp only [List.cons_append, List.cons.injEq] at e
    have := wsB_of_mem h (c := a) (by simp)
    rw [e.1, hc] at this
    cases this

theorem ws_nil_of_last {w l r : List Char} {c : Char} (h : IsWs w) (e : l ++ w = r ++ [c])
    (hc : wsB c = false) : w = [] := by
  rcases List.eq_nil_or_concat w with rfl | ⟨w', a, rfl⟩
  · rfl
  · have e' : (l ++ w') ++ [a] = r ++ [c] := by rw [List.append_assoc]; simpa using e
    have := (List.append_inj' e' rfl).2
    simp only [List.cons.injEq, and_true] at this
    have h2 := wsB_of_mem h (c := a) (by simp)
    rw [this, hc] at h2
    cases h2

theorem number_head {l : List Char} (h : IsNumber l) : ∃ c r, l = c :: r ∧ (c = '-' ∨ ('0' ≤ c ∧ c ≤ '9')) := by
  obtain ⟨sign, int, frac, exp, rfl, h1, h2, _⟩ := h
  rcases h1 with rfl | rfl
  · rcases h2 with rfl | ⟨h, _⟩
    · exact ⟨'0', _, rfl, .inr (by decide)⟩
    · cases int with
      | nil => exact absurd rfl h.1
      | cons c int => exact ⟨c, _, rfl, .inr (h.2 c (by simp))⟩
  · exact ⟨'-', _, rfl, .inl rfl⟩

theorem object_inv {k : Kind} {l : List Char} (h : Derives k l) :
    k = .value → ∀ x, l = '{' :: (x ++ ['}']) → IsWs x ∨ Derives .members x := by
  have clash : ∀ {x y : List Char}, ('{' :: x) ++ ['}'] = '{' :: (y ++ ['}']) → x = y := by
    intro x y e
    simp only [List.cons_append, List.cons.injEq, true_and] at e
    exact (List.append_inj' e rfl).1
  induction h with
  | ws h1 h2 _ ih =>
    intro hk x e
    rw [List.append_assoc] at e
    have := ws_nil_of_head h1 e (by decide)
    subst this
    rw [List.nil_append] at e
    have := ws_nil_of_last (r := '{' :: x) h2 (by simpa using e) (by decide)
    subst this
    rw [List.append_nil] at e
    exact ih hk x e
  | null => intro _ x e; exact absurd e (by simp)
  | true => intro _ x e; exact absurd e (by simp)
  | false => intro _ x e; exact absurd e (by simp)
  | number h =>
    intro _ x e
    obtain ⟨c, r, rfl, hc⟩ := number_head h
    simp only [List.cons.injEq] at e
    rw [e.1] at hc
    exact absurd hc (by decide)
  | string h => intro _ x e; simp at e
  | emptyObject h => intro _ x e; rw [clash e] at h; exact .inl h
  | object h _ => intro _ x e; rw [clash e] at h; exact .inr h
  | emptyArray h => intro _ x e; simp at e
  | array _ _ => intro _ x e; simp at e
  | member => intro hk; cases hk
  | moreMembers => intro hk; cases hk
  | element => intro hk; cases hk
  | moreElements => intro hk; cases hk

theorem members_inv {k : Kind} {m : List Char} (h : Derives k m) : k = .members →
    ∃ w key w' v tail, IsWs w ∧ StringBody key ∧ IsWs w' ∧ Derives .value v ∧
      m = w ++ ('"' :: (key ++ '"' :: (w' ++ ':' :: (v ++ tail)))) ∧
      (tail = [] ∨ ∃ b, tail = ',' :: b ∧ Derives .members b) := by
  induction h with
  | @member w k w' v h1 h2 h3 h4 _ =>
    intro _
    exact ⟨w, k, w', v, [], h1, h2, h3, h4, by simp, .inl rfl⟩
  | @moreMembers a b ha hb iha _ =>
    intro _
    obtain ⟨w, key, w', v, tail, h1, h2, h3, h4, rfl, h5⟩ := iha rfl
    rcases h5 with rfl | ⟨b', rfl, hb'⟩
    · exact ⟨w, key, w', v, ',' :: b, h1, h2, h3, h4, by simp, .inr ⟨b, rfl, hb⟩⟩
    · exact ⟨w, key, w', v, ',' :: (b' ++ ',' :: b), h1, h2, h3, h4, by simp, .inr ⟨_, rfl, .moreMembers hb' hb⟩⟩
  | _ => intro hk; cases hk

/-- The first character of a value behind white space. -/
theorem value_head {k : Kind} {v : List Char} (h : Derives k v) : k = .value →
    ∃ w c r, v = w ++ c :: r ∧ IsWs w ∧ wsB c = false ∧
      (c = '"' → ∃ s w', StringBody s ∧ IsWs w' ∧ r = s ++ '"' :: w') := by
  have nows : IsWs [] := by intro c hc; cases hc
  induction h with
  | @ws l w w' h1 h2 _ ih =>
    intro hk
    obtain ⟨w0, c, r, rfl, i1, i2, i3⟩ := ih hk
    refine ⟨w ++ w0, c, r ++ w', by simp, ?_, i2, ?_⟩
    · intro x hx
      rcases List.mem_append.1 hx with hx | hx
      · exact h1 x hx
      · exact i1 x hx
    · intro hc
      obtain ⟨s, w1, j1, j2, rfl⟩ := i3 hc
      refine ⟨s, w1 ++ w', j1, ?_, by simp⟩
      intro x hx
      rcases List.mem_append.1 hx with hx | hx
      · exact j2 x hx
      · exact h2 x hx
  | null => intro _; exact ⟨[], 'n', "ull".toList, by decide, nows, by decide, fun h => absurd h (by decide)⟩
  | true => intro _; exact ⟨[], 't', "rue".toList, by decide, nows, by decide, fun h => absurd h (by decide)⟩
  | false => intro _; exact ⟨[], 'f', "alse".toList, by decide, nows, by decide, fun h => absurd h (by decide)⟩
  | number h =>
    intro _
    obtain ⟨c, r, rfl, hc⟩ := number_head h
    refine ⟨[], c, r, rfl, nows, ?_, ?_⟩
    · cases hw : wsB c with
      | false => rfl
      | true =>
        simp only [wsB, Bool.or_eq_true, decide_eq_true_eq] at hw
        rcases hw with ((rfl | rfl) | rfl) | rfl <;> exact absurd hc (by decide)
    · rintro rfl
      exact absurd hc (by decide)
  | @string l h =>
    intro _
    exact ⟨[], '"', l ++ ['"'], by simp, nows, by decide, fun _ => ⟨l, [], h, nows, rfl⟩⟩
  | @emptyObject w h => intro _; exact ⟨[], '{', w ++ ['}'], by simp, nows, by decide, fun h => absurd h (by decide)⟩
  | @object l h _ => intro _; exact ⟨[], '{', l ++ ['}'], by simp, nows, by decide, fun h => absurd h (by decide)⟩
  | @emptyArray w h => intro _; exact ⟨[], '[', w ++ [']'], by simp, nows, by decide, fun h => absurd h (by decide)⟩
  | @array l h _ => intro _; exact ⟨[], '[', l ++ [']'], by simp, nows, by decide, fun h => absurd h (by decide)⟩
  | member => intro hk; cases hk
  | moreMembers => intro hk; cases hk
  | element => intro hk; cases hk
  | moreElements => intro hk; cases hk

/-- Where a string ends is determined. -/
theorem string_unique {s s' : List Char} (h : StringBody s) (h' : StringBody s') {r r' : List Char}
    (e : s ++ '"' :: r = s' ++ '"' :: r') : s = s' ∧ r = r' := by
  induction h generalizing s' with
  | nil =>
    cases h' with
    | nil => simpa using e
    | char hc _ => simp at e; exact absurd e.1.symm hc.2.1
    | escape _ _ => simp at e
    | unicode _ _ _ _ _ => simp at e
  | @char c l hc _ ih =>
    cases h' with
    | nil => simp at e; exact absurd e.1 hc.2.1
    | char hc' h' =>
      simp only [List.cons_append, List.cons.injEq] at e
      obtain ⟨rfl, e⟩ := e
      obtain ⟨rfl, rfl⟩ := ih h' e
      exact ⟨rfl, rfl⟩
    | escape _ _ => simp at e; exact absurd e.1 hc.2.2
    | unicode _ _ _ _ _ => simp at e; exact absurd e.1 hc.2.2
  | @escape c l hc _ ih =>
    cases h' with
    | nil => simp at e
    | char hc' h' => simp at e; exact absurd e.1.symm hc'.2.2
    | escape _ h' =>
      simp only [List.cons_append, List.cons.injEq, true_and] at e
      obtain ⟨rfl, e⟩ := e
      obtain ⟨rfl, rfl⟩ := ih h' e
      exact ⟨rfl, rfl⟩
    | unicode _ _ _ _ _ => simp at e; rw [e.1] at hc; exact absurd hc (by decide)
  | @unicode a b c d l h1 h2 h3 h4 _ ih =>
    cases h' with
    | nil => simp at e
    | char hc' h' => simp at e; exact absurd e.1.symm hc'.2.2
    | escape hc' _ => simp at e; rw [← e.1] at hc'; exact absurd hc' (by decide)
    | unicode _ _ _ _ h' =>
      simp only [List.cons_append, List.cons.injEq, true_and] at e
      obtain ⟨rfl, rfl, rfl, rfl, e⟩ := e
      obtain ⟨rfl, rfl⟩ := ih h' e
      exact ⟨rfl, rfl⟩

/-- Plain characters at the start of a string can be taken off. -/
theorem string_strip {n s r a : List Char} (hn : ∀ c ∈ n, Unescaped c) (hs : StringBody s)
    (e : s ++ '"' :: r = n ++ a) : ∃ t, StringBody t ∧ s = n ++ t ∧ t ++ '"' :: r = a := by
  induction n generalizing s with
  | nil => exact ⟨s, hs, rfl, e⟩
  | cons c n ih =>
    have hc := hn c (by simp)
    cases hs with
    | nil => simp at e; exact absurd e.1.symm hc.2.1
    | char _ hs =>
      simp only [List.cons_append, List.cons.injEq] at e
      obtain ⟨rfl, e⟩ := e
      obtain ⟨t, t1, rfl, t3⟩ := ih (fun d hd => hn d (by simp [hd])) hs e
      exact ⟨t, t1, rfl, t3⟩
    | escape _ _ => simp at e; exact absurd e.1.symm hc.2.2
    | unicode _ _ _ _ _ => simp at e; exact absurd e.1.symm hc.2.2

/-- C40, exactly, for every action: the body is JSON if and only if the action is the inside of a JSON string, or
closes the string itself and goes on with a comma and further members, the last of which the rest of the body completes:
`x", "k": "v` is answered with a body of two members, chosen by the peer. -/
theorem C40_exact_any (action : String) :
    IsJson (notFoundText action) ↔ StringBody action.toList ∨
      ∃ t w m, StringBody t ∧ IsWs w ∧ Derives .members m ∧
        action.toList ++ ['"'] = t ++ '"' :: (w ++ ',' :: m) := by
  have pre : ∀ c ∈ "No handler found for ".toList, Unescaped c := by unfold Unescaped; decide +kernel
  have key : StringBody "error".toList := by
    refine .char ?_ (.char ?_ (.char ?_ (.char ?_ (.char ?_ .nil)))) <;> (unfold Unescaped; decide)
  have nows : IsWs [] := by intro c hc; cases hc
  have e0 : (notFoundText action).toList = '{' :: (('"' :: ("error".toList ++ '"' :: (':' :: ' ' :: '"' ::
      ("No handler found for ".toList ++ (action.toList ++ ['"']))))) ++ ['}']) := by
    rw [notFound_toList]
    have : "{\"error\": \"No handler found for ".toList =
      '{' :: '"' :: "error".toList ++ '"' :: ':' :: ' ' :: '"' :: "No handler found for ".toList := by decide +kernel
    rw [this]
    have : "\"}".toList = ['"', '}'] := by decide +kernel
    rw [this]
    simp only [List.cons_append, List.append_assoc, List.nil_append]
  constructor
  · intro hj
    rcases object_inv hj rfl _ e0 with hw | hm
    · have := wsB_of_mem hw (c := '"') (by simp)
      exact absurd this (by decide)
    · obtain ⟨w, k, w', v, tail, h1, h2, h3, h4, e1, h5⟩ := members_inv hm rfl
      have := ws_nil_of_head h1 e1.symm (by decide)
      subst this
      simp only [List.nil_append, List.cons.injEq, true_and] at e1
      obtain ⟨rfl, e2⟩ := string_unique key h2 e1
      have := ws_nil_of_head h3 e2.symm (by decide)
      subst this
      simp only [List.nil_append, List.cons.injEq, true_and] at e2
      obtain ⟨w0, c, r, rfl, i1, i2, i3⟩ := value_head h4 rfl
      -- the value starts with one space
      have hw0 : w0 = [' '] ∧ c = '"' ∧ r ++ tail = "No handler found for ".toList ++ (action.toList ++ ['"']) := by
        cases w0 with
        | nil =>
          simp only [List.nil_append, List.cons_append, List.cons.injEq] at e2
          rw [← e2.1] at i2
          exact absurd i2 (by decide)
        | cons x w0 =>
          simp only [List.cons_append, List.cons.injEq] at e2
          obtain ⟨rfl, e2⟩ := e2
          have hws : IsWs w0 := fun c hc => i1 c (by simp [hc])
          rw [List.append_assoc] at e2
          have := ws_nil_of_head hws e2.symm (by decide)
          subst this
          simp only [List.nil_append, List.cons_append, List.cons.injEq] at e2
          exact ⟨rfl, e2.1.symm, e2.2.symm⟩
      obtain ⟨_, hc, e3⟩ := hw0
      obtain ⟨s, w2, j1, j2, rfl⟩ := i3 hc
      rw [List.append_assoc, List.cons_append] at e3
      obtain ⟨t, t1, rfl, t3⟩ := string_strip pre j1 e3
      rcases h5 with rfl | ⟨b, rfl, hb⟩
      · left
        rw [List.append_nil] at t3
        have := ws_nil_of_last (l := t ++ ['"']) j2 (by simpa using t3) (by decide)
        subst this
        have := (List.append_inj' t3 rfl).1
        rw [← this]; exact t1
      · right
        exact ⟨t, w2, b, t1, j2, hb, t3.symm⟩
  · rintro (h | ⟨t, w, m, h1, h2, h3, h4⟩)
    · exact notFound_json h
    · unfold IsJson
      rw [e0, h4]
      have hm : Derives .members (([] ++ ('"' :: "error".toList ++ ['"']) ++ [] ++ ':' ::
          ([' '] ++ ('"' :: ("No handler found for ".toList ++ t) ++ ['"']) ++ w)) ++ ',' :: m) := by
        refine .moreMembers (.member nows key nows (.ws ?_ h2 (.string ?_))) h3
        · intro c hc; simp at hc; exact .inl hc
        · exact stringBody_append (stringBody_of_unescaped pre) h1
      have := Derives.object hm
      simpa only [List.cons_append, List.append_assoc, List.nil_append, List.append_nil] using this

/-- What such an action does: for all plain texts `x`, `k`, `v` the action `x", "k": "v` is answered with a body that is
JSON but has a second member, `k`. -/
theorem C40_steered (x k v : String) (hx : ∀ c ∈ x.toList, Unescaped c) (hk : ∀ c ∈ k.toList, Unescaped c)
    (hv : ∀ c ∈ v.toList, Unescaped c) :
    IsJson (notFoundText (x ++ "\", \"" ++ k ++ "\": \"" ++ v)) ∧
    notFoundText (x ++ "\", \"" ++ k ++ "\": \"" ++ v) =
      "{\"error\": \"No handler found for " ++ x ++ "\", \"" ++ k ++ "\": \"" ++ v ++ "\"}" := by
  have nows : IsWs [] := by intro c hc; cases hc
  have sp : IsWs [' '] := by intro c hc; simp at hc; exact .inl hc
  constructor
  · rw [C40_exact_any]
    right
    refine ⟨x.toList, [], [' '] ++ ('"' :: k.toList ++ ['"']) ++ [] ++ ':' :: ([' '] ++ ('"' :: v.toList ++ ['"']) ++ []),
      stringBody_of_unescaped hx, nows,
      .member sp (stringBody_of_unescaped hk) nows (.ws sp nows (.string (stringBody_of_unescaped hv))), ?_⟩
    have e1 : "\", \"".toList = ['"', ',', ' ', '"'] := by decide +kernel
    have e2 : "\": \"".toList = ['"', ':', ' ', '"'] := by decide +kernel
    simp [String.toList_append, e1, e2]
  · unfold notFoundText
    simp only [String.append_assoc]

example := C40_steered "GET /" "x" "y" (by simp [Json.Unescaped]) (by simp [Json.Unescaped]) (by simp [Json.Unescaped])

example : ∀ c ∈ "created".toList, Unescaped c := by unfold Unescaped; decide +kernel

end Verif
