import Verif.Py.Dict
/-!
# Lemmas about insertion-ordered dicts and sets
-/

namespace Verif.Py
namespace Dict
variable {κ ν : Type} [DecidableEq κ]

theorem set_of_not_mem {d : Dict κ ν} {k : κ} {v : ν} (h : k ∉ d.map (·.1)) :
    set d k v = d ++ [(k, v)] := by
  induction d with
  | nil => rfl
  | cons p d ih =>
    obtain ⟨k', v'⟩ := p
    simp only [List.map_cons, List.mem_cons, not_or] at h
    simp only [set]
    rw [if_neg (fun e => h.1 e.symm), ih h.2]; rfl

theorem keys_set_of_mem {d : Dict κ ν} {k : κ} {v : ν} (h : k ∈ d.map (·.1)) :
    (set d k v).map (·.1) = d.map (·.1) := by
  induction d with
  | nil => simp at h
  | cons p d ih =>
    obtain ⟨k', v'⟩ := p
    simp only [set]
    by_cases e : k' = k
    · rw [if_pos e]; rfl
    · rw [if_neg e, List.map_cons, List.map_cons, ih]
      simpa [Ne.symm e] using h

theorem mem_keys_set {d : Dict κ ν} {k k' : κ} {v : ν} :
    k' ∈ (set d k v).map (·.1) ↔ k' = k ∨ k' ∈ d.map (·.1) := by
  by_cases h : k ∈ d.map (·.1)
  · rw [keys_set_of_mem h]
    constructor
    · exact Or.inr
    · rintro (rfl | h')
      · exact h
      · exact h'
  · rw [set_of_not_mem h]; simp [or_comm]

theorem WF.set {d : Dict κ ν} (hd : WF d) (k : κ) (v : ν) : WF (set d k v) := by
  by_cases h : k ∈ d.map (·.1)
  · unfold WF; rw [keys_set_of_mem h]; exact hd
  · unfold WF; rw [set_of_not_mem h, List.map_append, List.nodup_append]
    refine ⟨hd, by simp, ?_⟩
    intro a ha b hb
    simp at hb; subst hb; rintro rfl; exact h ha

omit [DecidableEq κ] in
theorem WF.nil : WF ([] : Dict κ ν) := List.nodup_nil

theorem foldl_set_wf (l : List (κ × ν)) (d : Dict κ ν) (hd : WF d) :
    WF (l.foldl (fun d kv => Dict.set d kv.1 kv.2) d) := by
  induction l generalizing d with
  | nil => exact hd
  | cons p l ih => exact ih _ (hd.set _ _)

theorem ofItems_wf (l : List (κ × ν)) : WF (ofItems l) := foldl_set_wf l [] WF.nil

theorem foldl_set_of_nodup (l : List (κ × ν)) (d : Dict κ ν) (h : WF (d ++ l)) :
    l.foldl (fun d kv => Dict.set d kv.1 kv.2) d = d ++ l := by
  induction l generalizing d with
  | nil => simp
  | cons p l ih =>
    have hnot : p.1 ∉ d.map (·.1) := by
      unfold WF at h
      rw [List.map_append, List.nodup_append] at h
      intro hm; exact h.2.2 _ hm p.1 (by simp) rfl
    rw [List.foldl_cons, set_of_not_mem hnot, ih]
    · simp
    · simpa using h

/-- Building a dict from items with distinct keys keeps them as they are. -/
theorem ofItems_of_wf {l : List (κ × ν)} (h : WF l) : ofItems l = l := by
  have := foldl_set_of_nodup l [] (by simpa using h)
  simpa [ofItems] using this

theorem get?_set (d : Dict κ ν) (k k' : κ) (v : ν) :
    get? (set d k v) k' = if k = k' then some v else get? d k' := by
  induction d with
  | nil => simp [set, get?]
  | cons p d ih =>
    obtain ⟨q, w⟩ := p
    simp only [set]
    by_cases e : q = k
    · subst e; simp only [if_true, get?]
      by_cases e' : q = k' <;> simp [e']
    · rw [if_neg e]; simp only [get?, ih]
      by_cases e' : q = k'
      · subst e'; simp [Ne.symm e]
      · simp [e']

theorem get?_eq_none {d : Dict κ ν} {k : κ} : get? d k = none ↔ k ∉ d.map (·.1) := by
  induction d with
  | nil => simp [get?]
  | cons p d ih =>
    obtain ⟨q, w⟩ := p
    simp only [get?, List.map_cons, List.mem_cons, not_or]
    by_cases e : q = k
    · subst e; simp
    · rw [if_neg e, ih]; simp [Ne.symm e]

theorem contains_iff {d : Dict κ ν} {k : κ} : contains d k = true ↔ k ∈ d.map (·.1) := by
  unfold contains
  have := get?_eq_none (d := d) (k := k)
  cases h : get? d k with
  | none => simp [this.1 h]
  | some v =>
    simp only [Option.isSome_some, true_iff]
    exact Classical.byContradiction fun hc => by rw [this.2 hc] at h; cases h

theorem get?_mem {d : Dict κ ν} {k : κ} {v : ν} (h : get? d k = some v) : (k, v) ∈ d := by
  induction d with
  | nil => simp [get?] at h
  | cons p d ih =>
    obtain ⟨q, w⟩ := p
    simp only [get?] at h
    split at h
    · next e => cases h; subst e; simp
    · exact List.mem_cons_of_mem _ (ih h)

theorem get?_of_mem {d : Dict κ ν} (hd : WF d) {k : κ} {v : ν} (h : (k, v) ∈ d) :
    get? d k = some v := by
  induction d with
  | nil => simp at h
  | cons p d ih =>
    obtain ⟨q, w⟩ := p
    simp only [WF, List.map_cons, List.nodup_cons] at hd
    simp only [get?]
    rcases List.mem_cons.1 h with e | h'
    · cases e; simp
    · have : q ≠ k := by
        rintro rfl; exact hd.1 (List.mem_map.2 ⟨_, h', rfl⟩)
      rw [if_neg this]; exact ih hd.2 h'

theorem get?_erase {d : Dict κ ν} (hd : WF d) (k k' : κ) :
    get? (erase d k) k' = if k = k' then none else get? d k' := by
  induction d with
  | nil => simp [erase, get?]
  | cons p d ih =>
    obtain ⟨q, w⟩ := p
    simp only [WF, List.map_cons, List.nodup_cons] at hd
    simp only [erase]
    by_cases e : q = k
    · subst e; rw [if_pos rfl]
      by_cases e' : q = k'
      · subst e'; rw [if_pos rfl]; exact get?_eq_none.2 hd.1
      · rw [if_neg e', get?, if_neg e']
    · rw [if_neg e]; simp only [get?, ih hd.2]
      by_cases e' : q = k'
      · subst e'; simp [Ne.symm e]
      · simp [e']

theorem erase_sublist (d : Dict κ ν) (k : κ) : (erase d k).Sublist d := by
  induction d with
  | nil => exact List.Sublist.slnil
  | cons p d ih =>
    obtain ⟨q, w⟩ := p
    simp only [erase]
    split
    · exact List.sublist_cons_self _ _
    · exact ih.cons_cons _

theorem WF.erase {d : Dict κ ν} (hd : WF d) (k : κ) : WF (erase d k) :=
  List.Sublist.nodup ((erase_sublist d k).map _) hd

theorem erase_of_not_mem {d : Dict κ ν} {k : κ} (h : k ∉ d.map (·.1)) : erase d k = d := by
  induction d with
  | nil => rfl
  | cons p d ih =>
    obtain ⟨q, w⟩ := p
    simp only [List.map_cons, List.mem_cons, not_or] at h
    simp only [erase]
    rw [if_neg (fun e => h.1 e.symm), ih h.2]

end Dict

theorem foldl_pySet {α} [DecidableEq α] (l s : List α) (h : (s ++ l).Nodup) :
    l.foldl (fun s x => if x ∈ s then s else s ++ [x]) s = s ++ l := by
  induction l generalizing s with
  | nil => simp
  | cons x l ih =>
    have hx : x ∉ s := by
      rw [List.nodup_append] at h
      intro hm; exact h.2.2 x hm x (by simp) rfl
    rw [List.foldl_cons, if_neg hx, ih]
    · simp
    · simpa using h

theorem pySet_of_nodup {α} [DecidableEq α] {l : List α} (h : l.Nodup) : pySet l = l := by
  have := foldl_pySet l [] (by simpa using h)
  simpa [pySet] using this

theorem foldl_pySet_nodup {α} [DecidableEq α] (l s : List α) (h : s.Nodup) :
    (l.foldl (fun s x => if x ∈ s then s else s ++ [x]) s).Nodup := by
  induction l generalizing s with
  | nil => exact h
  | cons x l ih =>
    rw [List.foldl_cons]; apply ih
    split
    · exact h
    · next hx =>
      rw [List.nodup_append]
      refine ⟨h, by simp, ?_⟩
      intro a ha b hb; simp at hb; subst hb; rintro rfl; exact hx ha

theorem pySet_nodup {α} [DecidableEq α] (l : List α) : (pySet l).Nodup :=
  foldl_pySet_nodup l [] List.nodup_nil

theorem mem_foldl_pySet {α} [DecidableEq α] (l s : List α) (y : α) :
    y ∈ l.foldl (fun s x => if x ∈ s then s else s ++ [x]) s ↔ y ∈ s ∨ y ∈ l := by
  induction l generalizing s with
  | nil => simp
  | cons x l ih =>
    rw [List.foldl_cons, ih]
    split
    · next hx =>
      constructor
      · rintro (h | h)
        · exact Or.inl h
        · exact Or.inr (by simp [h])
      · rintro (h | h)
        · exact Or.inl h
        · rcases List.mem_cons.1 h with rfl | h
          · exact Or.inl hx
          · exact Or.inr h
    · simp [or_assoc]

theorem mem_pySet {α} [DecidableEq α] (l : List α) (y : α) : y ∈ pySet l ↔ y ∈ l := by
  have := mem_foldl_pySet l [] y
  simpa [pySet] using this

end Verif.Py
