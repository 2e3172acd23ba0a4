import Verif.Spec.Domains
import Verif.Lemmas.Messages
import Verif.Model.Rest
/-! Round-trip lemmas for the REST messages, sorting, and the glob matcher. -/

namespace Verif
open Py StreamInput StreamOutput

theorem insertSorted_perm (x : String) (l : List String) : (insertSorted x l).Perm (x :: l) := by
  induction l with
  | nil => exact List.Perm.refl _
  | cons y ys ih =>
    unfold insertSorted
    split
    · exact List.Perm.refl _
    · exact (ih.cons y).trans (List.Perm.swap x y ys)

theorem sorted_perm (l : List String) : (sorted l).Perm l := by
  induction l with
  | nil => exact List.Perm.refl _
  | cons x xs ih => exact (insertSorted_perm x _).trans (ih.cons x)

theorem strsOK_sorted {l : List String} (h : StrsOK l) : StrsOK (sorted l) :=
  ⟨by rw [(sorted_perm l).length_eq]; exact h.1, fun s hs => h.2 s ((sorted_perm l).mem_iff.1 hs)⟩

theorem rt_media {s : String} (h : StrOK s) (old : String) :
    RoundTrips (writeBoolean (decide (0 < s.length)) ++ (if s ≠ "" then writeString s else W.nil))
      (ExtensionRestRequest.readMediaType old) (if s = "" then old else s) := by
  unfold ExtensionRestRequest.readMediaType
  by_cases hs : s = ""
  · subst hs
    simp only [ne_eq, not_true_eq_false, if_false, if_true]
    exact (rt_boolean _).seq (RoundTrips.pure old)
  · have : 0 < s.length := by
      rcases Nat.eq_zero_or_pos s.length with h0 | h0
      · exact absurd (String.length_eq_zero_iff.1 h0) hs
      · exact h0
    simp only [ne_eq, hs, not_false_eq_true, if_true, if_false, this, decide_true]
    exact (rt_boolean true).seq (rt_string h)

theorem rt_restRequest {r : ExtensionRestRequest} (ok : RequestOK r) (self : ExtensionRestRequest) :
    RoundTrips r.writeTo (ExtensionRestRequest.readFrom self)
      { r with media_type := if r.media_type = "" then self.media_type else r.media_type,
               consumed_params := self.consumed_params, content_consumed := self.content_consumed } := by
  obtain ⟨t, m, uri, path, ps, hs, mt, c, pit, hv, cp, cc⟩ := r
  obtain ⟨h1, h2, h3, h4, h5, h6, h7, h8, h9, h10⟩ := ok
  obtain ⟨m, rfl⟩ := Option.ne_none_iff_exists'.1 h2
  obtain ⟨hv, rfl⟩ := Option.ne_none_iff_exists'.1 h10
  unfold ExtensionRestRequest.writeTo ExtensionRestRequest.readFrom
  simp only [writeEnumOpt]
  refine (rt_taskId h1).seq ((rt_method m).seq ((rt_string h3).seq ((rt_string h4).seq
    ((rt_stringDict h5).seq ((rt_stringArrayDict h6).seq ?_)))))
  rw [← W.append_assoc]
  refine (rt_media h7 _).seq ((rt_arraySize h8).seq ((rt_rawBytes c).seq ((rt_string h9).seq ?_)))
  exact (rt_httpVersion hv).map fun v => ({ self with
    parent_task_id := t, method := some m, uri := uri, path := path, params := ps, headers := hs,
    media_type := if mt = "" then self.media_type else mt, content_ := c,
    principal_identifier_token := pit, http_version := some v } : ExtensionRestRequest)

theorem rt_restResponse {r : ExtensionRestResponse} (ok : ResponseOK r) :
    RoundTrips r.writeTo ExtensionRestResponse.readFrom
      { r with consumed_params := sorted r.consumed_params } := by
  obtain ⟨st, c, ct, hs, cp, cc⟩ := r
  obtain ⟨h1, h2, h3, h4, h5, h6⟩ := ok
  obtain ⟨st, rfl⟩ := Option.ne_none_iff_exists'.1 h1
  unfold ExtensionRestResponse.writeTo ExtensionRestResponse.readFrom
  simp only [writeEnumOpt]
  refine (rt_status st).seq ((rt_arraySize h2).seq ((rt_rawBytes c).seq ((rt_string h3).seq
    ((rt_stringArrayDict h4).seq ((rt_stringArray (strsOK_sorted h5)).seq ?_)))))
  have hp : pySet (sorted cp) = sorted cp := pySet_of_nodup ((sorted_perm cp).nodup_iff.2 h6)
  have := (rt_boolean cc).map fun b => (⟨some st, c, ct, hs, pySet (sorted cp), b⟩ : ExtensionRestResponse)
  rw [hp] at this ⊢
  exact this

theorem rt_execute {r : RestExecuteOnExtensionResponse} (ok : ExecuteOK r) :
    RoundTrips r.writeTo RestExecuteOnExtensionResponse.readFrom r := by
  obtain ⟨st, ct, c, hs, cp, cc⟩ := r
  obtain ⟨h1, h2, h3, h4, h5⟩ := ok
  obtain ⟨st, rfl⟩ := Option.ne_none_iff_exists'.1 h1
  unfold RestExecuteOnExtensionResponse.writeTo RestExecuteOnExtensionResponse.readFrom
  simp only [writeEnumOpt]
  refine (rt_status st).seq ((rt_string h3).seq ((rt_arraySize h2).seq ((rt_rawBytes c).seq
    ((rt_stringArrayDict h4).seq ((rt_stringArray h5).seq ?_)))))
  exact (rt_boolean cc).map fun b => (⟨some st, ct, c, hs, cp, b⟩ : RestExecuteOnExtensionResponse)

namespace Py

theorem starMatch_iff (p : List Char → Bool) (l : List Char) :
    Glob.starMatch p l = true ↔ ∃ a b, l = a ++ b ∧ p b = true := by
  induction l with
  | nil =>
    simp only [Glob.starMatch]
    constructor
    · intro h; exact ⟨[], [], rfl, h⟩
    · rintro ⟨a, b, h, hb⟩
      obtain ⟨rfl, rfl⟩ := List.append_eq_nil_iff.1 h.symm
      exact hb
  | cons x xs ih =>
    simp only [Glob.starMatch, Bool.or_eq_true, ih]
    constructor
    · rintro (h | ⟨a, b, rfl, hb⟩)
      · exact ⟨[], _, rfl, h⟩
      · exact ⟨x :: a, b, rfl, hb⟩
    · rintro ⟨a, b, h, hb⟩
      cases a with
      | nil => left; simp at h; subst h; exact hb
      | cons y a => simp at h; right; exact ⟨a, b, h.2, hb⟩

/-- A character with no meaning in a pattern. -/
def Plain (c : Char) : Prop := c ≠ '*' ∧ c ≠ '?' ∧ c ≠ '['

instance (c : Char) : Decidable (Plain c) := inferInstanceAs (Decidable (_ ∧ _ ∧ _))

theorem translate_plain (l r : List Char) (h : ∀ c ∈ l, Plain c) (fuel : Nat) (hf : (l ++ r).length ≤ fuel) :
    Glob.translate fuel (l ++ r) = l.map Glob.lit ++ Glob.translate (fuel - l.length) r := by
  induction l generalizing fuel with
  | nil => simp
  | cons c l ih =>
    obtain ⟨k, rfl⟩ : ∃ k, fuel = k + 1 := ⟨fuel - 1, by simp at hf; omega⟩
    obtain ⟨h1, h2, h3⟩ := h c (by simp)
    simp only [List.cons_append, Glob.translate, h1, h2, h3, if_false, List.map_cons]
    rw [ih (fun c hc => h c (by simp [hc])) k (by simp at hf ⊢; omega)]
    simp

theorem translate_star (r : List Char) (fuel : Nat) (hf : r.length + 1 ≤ fuel) :
    Glob.translate fuel ('*' :: r) = Glob.star :: Glob.translate (fuel - 1) r := by
  obtain ⟨k, rfl⟩ : ∃ k, fuel = k + 1 := ⟨fuel - 1, by omega⟩
  simp [Glob.translate]

theorem matchAll_lits (l : List Char) (ps : List Glob) (name : List Char) :
    Glob.matchAll (l.map Glob.lit ++ ps) name = true ↔ ∃ b, name = l ++ b ∧ Glob.matchAll ps b = true := by
  induction l generalizing name with
  | nil => simp
  | cons c l ih =>
    cases name with
    | nil => simp [Glob.matchAll]
    | cons x xs =>
      simp only [List.map_cons, List.cons_append, Glob.matchAll, Bool.and_eq_true, beq_iff_eq, ih]
      constructor
      · rintro ⟨rfl, b, rfl, hb⟩; exact ⟨b, rfl, hb⟩
      · rintro ⟨b, h, hb⟩
        simp at h
        exact ⟨h.1, b, h.2, hb⟩

theorem afterBrace_name (name rest : List Char) (h : ∀ c ∈ name, c ≠ '}' ∧ c ≠ '\n') :
    afterBrace (name ++ '}' :: rest) = some rest := by
  induction name with
  | nil => simp [afterBrace]
  | cons c l ih =>
    have := h c (by simp)
    simp [afterBrace, this.1, this.2, ih (fun c hc => h c (by simp [hc]))]

theorem subBraces_plain (l r : List Char) (h : '{' ∉ l) (fuel : Nat) (hf : (l ++ r).length ≤ fuel) :
    subBraces fuel (l ++ r) = l ++ subBraces (fuel - l.length) r := by
  induction l generalizing fuel with
  | nil => simp
  | cons c l ih =>
    obtain ⟨k, rfl⟩ : ∃ k, fuel = k + 1 := ⟨fuel - 1, by simp at hf; omega⟩
    have hc : c ≠ '{' := by rintro rfl; simp at h
    simp only [List.cons_append, subBraces, hc, if_false]
    rw [ih (by intro h'; exact h (by simp [h'])) k (by simp at hf ⊢; omega)]
    simp

theorem subBraces_hole (name rest : List Char) (hne : name ≠ [])
    (h : ∀ c ∈ name, c ≠ '}' ∧ c ≠ '\n') (fuel : Nat) (hf : 0 < fuel) :
    subBraces fuel ('{' :: (name ++ '}' :: rest)) = '*' :: subBraces (fuel - 1) rest := by
  obtain ⟨k, rfl⟩ : ∃ k, fuel = k + 1 := ⟨fuel - 1, by omega⟩
  cases name with
  | nil => exact absurd rfl hne
  | cons c l =>
    have hc := h c (by simp)
    have := afterBrace_name l rest (fun c hc => h c (by simp [hc]))
    simp [subBraces, afterName, hc.2, this]

/-- More fuel than needed changes nothing. -/
theorem subBraces_fuel (fuel : Nat) : ∀ (l : List Char) (f' : Nat), l.length ≤ fuel → l.length ≤ f' →
    subBraces fuel l = subBraces f' l := by
  induction fuel with
  | zero =>
    intro l f' h1 _
    have : l = [] := List.length_eq_zero_iff.1 (by omega)
    subst this; cases f' <;> rfl
  | succ k ih =>
    intro l f' h1 h2
    cases l with
    | nil => cases f' <;> rfl
    | cons c cs =>
      obtain ⟨k', rfl⟩ : ∃ k', f' = k' + 1 := ⟨f' - 1, by simp at h2; omega⟩
      have hb : ∀ (l r : List Char), afterBrace l = some r → r.length ≤ l.length := by
        intro l
        induction l with
        | nil => simp [afterBrace]
        | cons x xs ihx =>
          intro r hr
          simp only [afterBrace] at hr
          split at hr
          · cases hr; simp
          · split at hr
            · cases hr
            · have := ihx r hr; simp; omega
      have hlen : ∀ r, afterName cs = some r → r.length ≤ cs.length := by
        intro r hr
        cases cs with
        | nil => simp [afterName] at hr
        | cons x xs =>
          simp only [afterName] at hr
          split at hr
          · cases hr
          · have := hb xs r hr; simp; omega
      simp only [subBraces]
      simp at h1 h2
      split
      · cases ha : afterName cs with
        | none => rw [ih cs k' h1 h2]
        | some r =>
          have := hlen r ha
          simp only
          rw [ih r k' (by omega) (by omega)]
      · rw [ih cs k' h1 h2]

end Py

end Verif
