import Verif.Props.Requests
import Verif.Spec.Json
/-!
# C40: is the body of the not-found reply JSON?
-/

namespace Verif
open Json

theorem Scan.run_append (s : Scan) (a b : List Char) : s.run (a ++ b) = (s.run a).run b :=
  List.foldl_append

theorem Scan.run_cons (s : Scan) (c : Char) (l : List Char) : s.run (c :: l) = (s.step c).run l := rfl

theorem scan_noQuote {l : List Char} (h : '"' ∉ l) : Scan.outside.run l = .outside := by
  induction l with
  | nil => rfl
  | cons c l ih =>
    simp only [List.mem_cons, not_or] at h
    rw [Scan.run_cons]
    have : Scan.outside.step c = .outside := by
      exact if_neg (fun hc => h.1 hc.symm)
    rw [this]; exact ih h.2

theorem scan_ws {w : List Char} (h : IsWs w) : Scan.outside.run w = .outside := by
  refine scan_noQuote fun hm => ?_
  rcases h _ hm with h | h | h | h <;> exact absurd h (by decide)

theorem inside_step {c : Char} (h : Unescaped c) : Scan.inside.step c = .inside := by
  exact (if_neg h.2.1).trans ((if_neg h.2.2).trans (if_pos h.1))

theorem scan_string {l : List Char} (h : StringBody l) : Scan.inside.run l = .inside := by
  induction h with
  | nil => rfl
  | char hc _ ih => rw [Scan.run_cons, inside_step hc]; exact ih
  | escape hc _ ih =>
    rw [Scan.run_cons, Scan.run_cons]
    have : (Scan.inside.step '\\').step _ = .inside := if_pos hc
    rw [this]; exact ih
  | @unicode a b c d l ha hb hc hd _ ih =>
    rw [Scan.run_cons, Scan.run_cons, Scan.run_cons, Scan.run_cons, Scan.run_cons, Scan.run_cons]
    have e : (Scan.inside.step '\\').step 'u' = .hex 3 := by decide
    have e1 : (Scan.hex 3).step a = .hex 2 := if_pos ha
    have e2 : (Scan.hex 2).step b = .hex 1 := if_pos hb
    have e3 : (Scan.hex 1).step c = .hex 0 := if_pos hc
    have e4 : (Scan.hex 0).step d = .inside := if_pos hd
    rw [e, e1, e2, e3, e4]
    exact ih

theorem bad_run (l : List Char) : Scan.bad.run l = .bad := by
  induction l with
  | nil => rfl
  | cons c l ih => rw [Scan.run_cons]; exact ih

theorem hex_run {n : Nat} {c : Char} {l : List Char} (h : (Scan.hex n).run (c :: l) = .inside) :
    IsHex c ∧ (match n with | 0 => Scan.inside | n + 1 => Scan.hex n).run l = .inside := by
  rw [Scan.run_cons] at h
  by_cases hc : IsHex c
  · have e : (Scan.hex n).step c = _ := if_pos hc
    rw [e] at h; exact ⟨hc, h⟩
  · have e : (Scan.hex n).step c = _ := if_neg hc
    rw [e, bad_run] at h; exact absurd h (by decide)

/-- A text without quotation marks that scans well inside a string is the content of a string. -/
theorem stringBody_of_scan : ∀ (l : List Char), '"' ∉ l → Scan.inside.run l = .inside → StringBody l
  | [], _, _ => .nil
  | c :: l, hq, h => by
    simp only [List.mem_cons, not_or] at hq
    rw [Scan.run_cons] at h
    by_cases hc : c = '\\'
    · subst hc
      have e : Scan.inside.step '\\' = .escaped := by decide
      rw [e] at h
      match l, hq, h with
      | [], _, h => exact absurd h (by decide)
      | d :: l, hq, h =>
        rw [Scan.run_cons] at h
        simp only [List.mem_cons, not_or] at hq
        by_cases hd : d ∈ ['"', '\\', '/', 'b', 'f', 'n', 'r', 't']
        · have e : Scan.escaped.step d = .inside := if_pos hd
          rw [e] at h
          exact .escape hd (stringBody_of_scan l hq.2.2 h)
        · by_cases hu : d = 'u'
          · subst hu
            have e : Scan.escaped.step 'u' = .hex 3 := by decide
            rw [e] at h
            match l, hq, h with
            | [], _, h => exact absurd h (by decide)
            | [a], _, h => exact absurd (hex_run h).2 (by decide)
            | [a, b], _, h => exact absurd (hex_run (hex_run h).2).2 (by decide)
            | [a, b, c], _, h => exact absurd (hex_run (hex_run (hex_run h).2).2).2 (by decide)
            | a :: b :: c :: d :: l, hq, h =>
              obtain ⟨ha, h⟩ := hex_run h
              obtain ⟨hb, h⟩ := hex_run h
              obtain ⟨hc, h⟩ := hex_run h
              obtain ⟨hd', h⟩ := hex_run h
              simp only [List.mem_cons, not_or] at hq
              exact .unicode ha hb hc hd' (stringBody_of_scan l hq.2.2.2.2.2.2 h)
          · have e : Scan.escaped.step d = .bad := (if_neg hd).trans (if_neg hu)
            rw [e, bad_run] at h; exact absurd h (by decide)
    · have hq' : c ≠ '"' := fun e => hq.1 e.symm
      by_cases hs : ' ' ≤ c
      · have hu : Unescaped c := ⟨hs, hq', hc⟩
        rw [inside_step hu] at h
        exact .char hu (stringBody_of_scan l hq.2 h)
      · have e : Scan.inside.step c = .bad := (if_neg hq').trans ((if_neg hc).trans (if_neg hs))
        rw [e, bad_run] at h; exact absurd h (by decide)

theorem digits_noQuote {l : List Char} (h : IsDigits l) : '"' ∉ l := by
  intro hm; exact absurd (h.2 _ hm) (by decide)

theorem number_noQuote {l : List Char} (h : IsNumber l) : '"' ∉ l := by
  obtain ⟨sign, int, frac, exp, rfl, h1, h2, h3, h4⟩ := h
  simp only [List.mem_append, not_or]
  refine ⟨⟨⟨?_, ?_⟩, ?_⟩, ?_⟩
  · rcases h1 with rfl | rfl <;> decide
  · rcases h2 with rfl | ⟨h, _⟩
    · decide
    · exact digits_noQuote h
  · rcases h3 with rfl | ⟨ds, rfl, h⟩
    · decide
    · simp only [List.mem_cons, not_or]; exact ⟨by decide, digits_noQuote h⟩
  · rcases h4 with rfl | ⟨e, s, ds, rfl, he, hs, h⟩
    · decide
    · simp only [List.mem_cons, List.mem_append, not_or]
      refine ⟨?_, ?_, digits_noQuote h⟩
      · rcases he with rfl | rfl <;> decide
      · rcases hs with rfl | rfl | rfl <;> decide

/-- In every JSON text the strings are closed. -/
theorem scan_json {k : Kind} {l : List Char} (h : Derives k l) : Scan.outside.run l = .outside := by
  have str : ∀ {b : List Char}, StringBody b → Scan.outside.run ('"' :: b ++ ['"']) = .outside := by
    intro b hb
    rw [Scan.run_append, Scan.run_cons]
    show ((Scan.inside).run b).run ['"'] = _
    rw [scan_string hb]; rfl
  have wrap : ∀ {a z : Char} {b : List Char}, a ≠ '"' → z ≠ '"' → Scan.outside.run b = .outside →
      Scan.outside.run (a :: b ++ [z]) = .outside := by
    intro a z b ha hz hb
    have h1 : Scan.outside.step a = .outside := if_neg ha
    have h2 : Scan.outside.step z = .outside := if_neg hz
    rw [Scan.run_append, Scan.run_cons _ a, h1, hb, Scan.run_cons, h2]; rfl
  induction h with
  | ws h1 h2 _ ih => rw [Scan.run_append, Scan.run_append, scan_ws h1, ih, scan_ws h2]
  | null => decide
  | true => decide
  | false => decide
  | number h => exact scan_noQuote (number_noQuote h)
  | string h => exact str h
  | emptyObject h => exact wrap (by decide) (by decide) (scan_ws h)
  | object _ ih => exact wrap (by decide) (by decide) ih
  | emptyArray h => exact wrap (by decide) (by decide) (scan_ws h)
  | array _ ih => exact wrap (by decide) (by decide) ih
  | member h1 h2 h3 _ ih =>
    rw [Scan.run_append, Scan.run_append, Scan.run_append, scan_ws h1, str h2, scan_ws h3, Scan.run_cons]
    exact ih
  | moreMembers _ _ ih1 ih2 => rw [Scan.run_append, ih1, Scan.run_cons]; exact ih2
  | element _ ih => exact ih
  | moreElements _ _ ih1 ih2 => rw [Scan.run_append, ih1, Scan.run_cons]; exact ih2

/-- The body of the not-found reply for an action (what `C39_not_found` shows is sent). -/
theorem notFound_toList (action : String) : (notFoundText action).toList =
    "{\"error\": \"No handler found for ".toList ++ action.toList ++ "\"}".toList := by
  unfold notFoundText; simp only [String.toList_append]

theorem stringBody_append {a b : List Char} (ha : StringBody a) (hb : StringBody b) : StringBody (a ++ b) := by
  induction ha with
  | nil => exact hb
  | char hc _ ih => exact .char hc ih
  | escape hc _ ih => exact .escape hc ih
  | unicode h1 h2 h3 h4 _ ih => exact .unicode h1 h2 h3 h4 ih

theorem stringBody_of_unescaped {l : List Char} (hl : ∀ c ∈ l, Unescaped c) : StringBody l := by
  induction l with
  | nil => exact .nil
  | cons c l ih => exact .char (hl c (by simp)) (ih fun d hd => hl d (by simp [hd]))

theorem notFound_json {action : String} (h : StringBody action.toList) : IsJson (notFoundText action) := by
  have pre : ∀ c ∈ "No handler found for ".toList, Unescaped c := by unfold Unescaped; decide +kernel
  have body : StringBody ("No handler found for ".toList ++ action.toList) :=
    stringBody_append (stringBody_of_unescaped pre) h
  have key : StringBody "error".toList := by
    refine .char ?_ (.char ?_ (.char ?_ (.char ?_ (.char ?_ .nil)))) <;> (unfold Unescaped; decide)
  have e : (notFoundText action).toList = '{' :: ([] ++ ('"' :: "error".toList ++ ['"']) ++ [] ++
      ':' :: ([' '] ++ ('"' :: ("No handler found for ".toList ++ action.toList) ++ ['"']) ++ [])) ++ ['}'] := by
    rw [notFound_toList]
    have : "{\"error\": \"No handler found for ".toList =
      '{' :: '"' :: "error".toList ++ '"' :: ':' :: ' ' :: '"' :: "No handler found for ".toList := by decide +kernel
    rw [this]
    have : "\"}".toList = ['"', '}'] := by decide +kernel
    rw [this]
    simp only [List.cons_append, List.append_assoc, List.nil_append, List.append_nil]
  unfold IsJson
  rw [e]
  refine .object (.member (by intro c hc; cases hc) key (by intro c hc; cases hc) (.ws ?_ ?_ (.string body)))
  · intro c hc; simp at hc; exact .inl hc
  · intro c hc; cases hc

/-- C40, the part that holds: if the action has no quotation mark, backslash or control character
(as all OpenSearch action names), the body of the not-found reply is a JSON text.  Missing: actions
with those characters, which are not escaped. -/
theorem C40_partial (action : String) (h : ∀ c ∈ action.toList, Unescaped c) :
    IsJson (notFoundText action) := notFound_json (stringBody_of_unescaped h)

/-- C40 is violated by every action whose quotation marks are not balanced, for instance a single
quotation mark or a trailing backslash: the body is then not JSON. -/
theorem C40_violated (action : String) (h : Scan.inside.run action.toList ≠ .inside) :
    ¬ IsJson (notFoundText action) := by
  intro hj
  have := scan_json hj
  rw [notFound_toList, Scan.run_append, Scan.run_append] at this
  have e : Scan.outside.run "{\"error\": \"No handler found for ".toList = .inside := by decide +kernel
  rw [e] at this
  have e' : "\"}".toList = ['"', '}'] := by decide +kernel
  rw [e'] at this
  revert this h
  cases Scan.inside.run action.toList with
  | hex n =>
    intro _ h
    have hq : ¬ IsHex '"' := by decide
    have e : (Scan.hex n).step '"' = .bad :=
      if_neg (t := match n with | 0 => Scan.inside | n + 1 => Scan.hex n) hq
    rw [Scan.run_cons, e, bad_run] at h
    exact absurd h (by decide)
  | _ => decide

/-- C40, which replies are JSON: for an action without quotation marks, exactly when the action happens to be the
inside of a JSON string already (no control characters, every backslash part of a JSON escape). -/
theorem C40_exact (action : String) (h : '"' ∉ action.toList) :
    IsJson (notFoundText action) ↔ StringBody action.toList := by
  refine ⟨fun hj => ?_, notFound_json⟩
  by_contra hb
  exact C40_violated action (fun hs => hb (stringBody_of_scan _ h hs)) hj

example : ¬ IsJson (notFoundText "\"") := C40_violated _ (by decide +kernel)
example : ¬ IsJson (notFoundText "a\\") := C40_violated _ (by decide +kernel)
example : IsJson (notFoundText "internal:unknown") := C40_partial _ (by unfold Unescaped; decide +kernel)
example : IsJson (notFoundText "a\\u00e9") := (C40_exact _ (by decide +kernel)).2 <| by
  have e : "a\\u00e9".toList = 'a' :: '\\' :: 'u' :: '0' :: '0' :: 'e' :: '9' :: [] := by decide +kernel
  rw [e]
  exact .char (by unfold Unescaped; decide) (.unicode (by decide) (by decide) (by decide) (by decide) .nil)
example : ¬ IsJson (notFoundText "a\nb") := C40_violated _ (by decide +kernel)

end Verif
