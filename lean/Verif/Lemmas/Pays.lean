import Verif.Props.Decoding
import Verif.Props.Collections
import Verif.Props.Requests
/-!
# What is decoded from `n` bytes takes about `n` bytes to encode again
-/

namespace Verif
open Py StreamInput StreamOutput Spec

/-- The length of an encoded number. -/
theorem vint_pays {input rest : Bytes} {n : Int} (h : readVInt input = .ok (n, rest)) :
    0 ≤ n ∧ (input = [] → n = 0 ∧ rest = []) ∧ (input ≠ [] → (varint n.toNat).length + rest.length ≤ input.length) := by
  refine ⟨((C82_range input rest n).1 h).1, ?_, ?_⟩
  · rintro rfl
    rw [(C82_truncated [] (by simp)).1] at h
    cases h; exact ⟨rfl, rfl⟩
  · intro hne
    obtain ⟨gs, hg, rfl | ⟨l, r, rfl, hl⟩⟩ := varint_split input
    · rw [(C82_truncated _ hg).1] at h
      split at h
      · cases h
        have hv := varintValue_lt input
        obtain ⟨k, hk⟩ : ∃ k, input.length = k + 1 := ⟨_, (Nat.sub_add_cancel (List.length_pos_iff.2 hne)).symm⟩
        rw [hk] at hv ⊢
        have := (varint_length_le k _).2 hv
        simpa using this
      · cases h
    · rw [C82_vint gs l r hg hl] at h
      split at h
      · cases h
        have hv := varintValue_lt (gs ++ [l])
        simp only [List.length_append, List.length_singleton] at hv
        have := (varint_length_le _ _).2 hv
        simp only [Int.toNat_natCast, List.length_append, List.length_cons]
        omega
      · cases h

theorem arraySize_pays {input rest : Bytes} {n : Int} (h : readArraySize input = .ok (n, rest)) :
    0 ≤ n ∧ (input = [] → n = 0 ∧ rest = []) ∧ (input ≠ [] → (varint n.toNat).length + rest.length ≤ input.length) := by
  unfold readArraySize at h
  obtain ⟨m, mid, h1, h2⟩ := Reader.bind_eq_ok.1 h
  split at h2
  · cases h2
  · have : (Except.ok (m, mid) : Except Err (Int × Bytes)) = .ok (n, rest) := h2
    cases this
    exact vint_pays h1

/-- The encoded length of a string. -/
def strCost (s : String) : Nat := (varint (utf8 s).length).length + (utf8 s).length

/-- Reading from an exhausted input gives `z`, and leaves it exhausted; what is read from other inputs costs no more than
the bytes consumed, but for `k` more when that exhausts the input. -/
structure Pays {α : Type} (r : Reader α) (cost : α → Nat) (z : α) (k : Nat) : Prop where
  eof : r [] = .ok (z, [])
  pays : ∀ input a rest, r input = .ok (a, rest) → input ≠ [] →
    cost a + rest.length ≤ input.length ∨ (rest = [] ∧ cost a ≤ input.length + k)

theorem pays_string : Pays readString strCost "" 0 := by
  refine ⟨by decide +kernel, fun input s rest h hne => ?_⟩
  obtain ⟨n, h1, h2⟩ := C08_accepts_only_utf8 input rest s h
  have h3 := (arraySize_pays h1).2.2 hne
  left
  have h4 : (varint (utf8 s).length).length ≤ (varint n).length := varint_length_mono (by omega)
  unfold strCost
  simp only [Int.toNat_natCast, List.length_append] at h3
  omega

/-- Key and value. -/
theorem pays_item {α : Type} {value : Reader α} {cost : α → Nat} {z : α} {k : Nat} (h : Pays value cost z k) (hz : cost z ≤ k) :
    Pays (readItem value) (fun kv => strCost kv.1 + cost kv.2) ("", z) k := by
  constructor
  · unfold readItem
    rw [Reader.bind_ok pays_string.eof, Reader.bind_ok h.eof]; rfl
  · intro input a rest ha hne
    unfold readItem at ha
    obtain ⟨key, mid, h1, h2⟩ := Reader.bind_eq_ok.1 ha
    obtain ⟨v, mid', h3, h4⟩ := Reader.bind_eq_ok.1 h2
    have : (Except.ok ((key, v), mid') : Except Err ((String × α) × Bytes)) = .ok (a, rest) := h4
    cases this
    have hk : strCost key + mid.length ≤ input.length := by
      rcases pays_string.pays _ _ _ h1 hne with e | ⟨e1, e2⟩
      · exact e
      · rw [e1]; simpa using e2
    by_cases hm : mid = []
    · subst hm
      rw [h.eof] at h3
      cases h3
      right
      simp only [List.length_nil, Nat.add_zero] at hk
      exact ⟨rfl, by simp only; omega⟩
    · rcases h.pays _ _ _ h3 hm with e | ⟨e1, e2⟩
      · left; simp only; omega
      · right; exact ⟨e1, by simp only; omega⟩

/-- A run of items: those read before the input is exhausted, and then the same one again and again. -/
theorem pays_times {α : Type} {r : Reader α} {cost : α → Nat} {z : α} {k : Nat} (h : Pays r cost z k) :
    ∀ (n : Nat) (input : Bytes) (l : List α) (rest : Bytes), r.times n input = .ok (l, rest) →
      l.length = n ∧ ∃ proper m, l = proper ++ List.replicate m z ∧
        ((proper.map cost).sum + rest.length ≤ input.length ∧ (m ≠ 0 → rest = []) ∨
          rest = [] ∧ (proper.map cost).sum ≤ input.length + k)
  | 0, input, l, rest, hl => by
    have : (Except.ok ([], input) : Except Err (List α × Bytes)) = .ok (l, rest) := hl
    cases this
    exact ⟨rfl, [], 0, by simp, .inl (by simp)⟩
  | n + 1, input, l, rest, hl => by
    by_cases hne : input = []
    · subst hne
      rw [times_const_nil r z h.eof] at hl
      cases hl
      exact ⟨by simp, [], n + 1, by simp, .inl (by simp)⟩
    · rw [Reader.times] at hl
      obtain ⟨a, mid, h1, h2⟩ := Reader.bind_eq_ok.1 hl
      obtain ⟨l', mid', h3, h4⟩ := Reader.bind_eq_ok.1 h2
      have : (Except.ok (a :: l', mid') : Except Err (List α × Bytes)) = .ok (l, rest) := h4
      cases this
      rcases h.pays _ _ _ h1 hne with e | ⟨rfl, e⟩
      · obtain ⟨g1, p, m, rfl, g2⟩ := pays_times h n mid l' rest h3
        refine ⟨by rw [List.length_cons, g1], a :: p, m, by simp, ?_⟩
        simp only [List.map_cons, List.sum_cons]
        rcases g2 with ⟨g2, g3⟩ | ⟨g2, g3⟩
        · exact .inl ⟨by omega, g3⟩
        · exact .inr ⟨g2, by omega⟩
      · rw [times_const_nil r z h.eof] at h3
        cases h3
        exact ⟨by simp, [a], n, by simp, .inr ⟨rfl, by simpa using e⟩⟩

/-- Nothing becomes more by making it a set. -/
theorem pySet_cost {α : Type} [DecidableEq α] (cost : α → Nat) (l : List α) :
    (pySet l).length ≤ l.length ∧ ((pySet l).map cost).sum ≤ (l.map cost).sum := by
  have : ∀ (l s : List α), (l.foldl (fun s x => if x ∈ s then s else s ++ [x]) s).length ≤ s.length + l.length ∧
      ((l.foldl (fun s x => if x ∈ s then s else s ++ [x]) s).map cost).sum ≤ (s.map cost).sum + (l.map cost).sum := by
    intro l
    induction l with
    | nil => intro s; simp
    | cons a l ih =>
      intro s
      simp only [List.foldl_cons, List.length_cons, List.map_cons, List.sum_cons]
      split
      · have := ih s; omega
      · have := ih (s ++ [a])
        simp only [List.length_append, List.length_singleton, List.map_append, List.sum_append, List.map_cons,
          List.map_nil, List.sum_cons, List.sum_nil] at this
        omega
  simpa [pySet] using this l []

theorem pySet_foldl_replicate {α : Type} [DecidableEq α] (z : α) (m : Nat) (s : List α) :
    (List.replicate m z).foldl (fun s x => if x ∈ s then s else s ++ [x]) s =
      if m = 0 then s else if z ∈ s then s else s ++ [z] := by
  induction m generalizing s with
  | zero => rfl
  | succ m ih =>
    simp only [List.replicate_succ, List.foldl_cons, ih]
    by_cases hz : z ∈ s <;> simp [hz]

theorem pySet_cost_replicate {α : Type} [DecidableEq α] (cost : α → Nat) (p : List α) (m : Nat) (z : α) :
    ((pySet (p ++ List.replicate m z)).map cost).sum ≤ (p.map cost).sum + if m = 0 then 0 else cost z := by
  have h := (pySet_cost cost p).2
  unfold pySet at h ⊢
  rw [List.foldl_append, pySet_foldl_replicate]
  split
  · omega
  · split
    · omega
    · simp only [List.map_append, List.sum_append, List.map_cons, List.map_nil, List.sum_cons, List.sum_nil]; omega

theorem dictSet_cost {κ ν : Type} [DecidableEq κ] (cost : κ × ν → Nat) (d : Dict κ ν) (k : κ) (v : ν) :
    (d.set k v).length ≤ d.length + 1 ∧ ((d.set k v).map cost).sum ≤ (d.map cost).sum + cost (k, v) := by
  induction d with
  | nil => simp [Dict.set]
  | cons kv d ih =>
    obtain ⟨k', v'⟩ := kv
    unfold Dict.set
    split
    · rename_i e; subst e; simp; omega
    · simp only [List.length_cons, List.map_cons, List.sum_cons]; omega

theorem dictSet_set {κ ν : Type} [DecidableEq κ] (d : Dict κ ν) (k : κ) (v : ν) : (d.set k v).set k v = d.set k v := by
  induction d with
  | nil => simp [Dict.set]
  | cons kv d ih =>
    obtain ⟨k', v'⟩ := kv
    unfold Dict.set
    by_cases e : k' = k
    · simp [e, Dict.set]
    · simp [e, Dict.set, ih]

theorem dictSet_replicate {κ ν : Type} [DecidableEq κ] (z : κ × ν) (m : Nat) (d : Dict κ ν) :
    (List.replicate m z).foldl (fun d kv => Dict.set d kv.1 kv.2) d = if m = 0 then d else d.set z.1 z.2 := by
  induction m generalizing d with
  | zero => rfl
  | succ m ih =>
    simp only [List.replicate_succ, List.foldl_cons, ih, dictSet_set]
    simp

theorem ofItems_cost {κ ν : Type} [DecidableEq κ] (cost : κ × ν → Nat) (l : List (κ × ν)) :
    (Dict.ofItems l).length ≤ l.length ∧ ((Dict.ofItems l).map cost).sum ≤ (l.map cost).sum := by
  have : ∀ (l : List (κ × ν)) (d : Dict κ ν), (l.foldl (fun d kv => Dict.set d kv.1 kv.2) d).length ≤ d.length + l.length ∧
      ((l.foldl (fun d kv => Dict.set d kv.1 kv.2) d).map cost).sum ≤ (d.map cost).sum + (l.map cost).sum := by
    intro l
    induction l with
    | nil => intro s; simp
    | cons a l ih =>
      intro d
      simp only [List.foldl_cons, List.length_cons, List.map_cons, List.sum_cons]
      have h1 := ih (d.set a.1 a.2)
      have h2 := dictSet_cost cost d a.1 a.2
      simp only [Prod.mk.eta] at h2
      omega
  simpa [Dict.ofItems] using this l []

theorem ofItems_cost_replicate {κ ν : Type} [DecidableEq κ] (cost : κ × ν → Nat) (p : List (κ × ν)) (m : Nat) (z : κ × ν) :
    ((Dict.ofItems (p ++ List.replicate m z)).map cost).sum ≤ (p.map cost).sum + if m = 0 then 0 else cost z := by
  have h := (ofItems_cost cost p).2
  unfold Dict.ofItems at h ⊢
  rw [List.foldl_append, dictSet_replicate]
  split
  · omega
  · have := (dictSet_cost cost (List.foldl (fun d kv => Dict.set d kv.1 kv.2) [] p) z.1 z.2).2
    simp only [Prod.mk.eta] at this
    omega

/-- The encoded length of an array of strings. -/
def arrCost (l : List String) : Nat := (varint l.length).length + (l.map strCost).sum

theorem readStringArray_ok {input rest : Bytes} {l : List String} (h : readStringArray input = .ok (l, rest)) :
    ∃ n mid, 0 ≤ n ∧ readArraySize input = .ok (n, mid) ∧ readString.times n.toNat mid = .ok (l, rest) := by
  unfold readStringArray at h
  obtain ⟨n, mid, h1, h2⟩ := Reader.bind_eq_ok.1 h
  exact ⟨n, mid, (arraySize_pays h1).1, h1, h2⟩

theorem pays_set : Pays (do let a ← readStringArray; return pySet a) arrCost [] 1 := by
  refine ⟨by decide +kernel, fun input v rest h hne => ?_⟩
  obtain ⟨l, mid0, h1, h2⟩ := Reader.bind_eq_ok.1 h
  have : (Except.ok (pySet l, mid0) : Except Err (List String × Bytes)) = .ok (v, rest) := h2
  cases this
  obtain ⟨n, mid, hn, h3, h4⟩ := readStringArray_ok h1
  have h5 := (arraySize_pays h3).2.2 hne
  obtain ⟨g1, p, m, rfl, g2⟩ := pays_times pays_string _ _ _ _ h4
  have h6 := (pySet_cost strCost (p ++ List.replicate m "")).1
  have h7 := pySet_cost_replicate strCost p m ""
  have h8 : (varint (pySet (p ++ List.replicate m "")).length).length ≤ (varint n.toNat).length :=
    varint_length_mono (by omega)
  have h9 : strCost "" = 1 := by decide +kernel
  rw [h9] at h7
  unfold arrCost
  rcases g2 with ⟨g2, g3⟩ | ⟨g2, g3⟩
  · by_cases hm : m = 0
    · left; rw [if_pos hm] at h7; omega
    · right; rw [if_neg hm] at h7; have := g3 hm; subst this; exact ⟨rfl, by simp only [List.length_nil] at g2; omega⟩
  · right
    refine ⟨g2, ?_⟩
    split at h7 <;> omega

/-- The encoded length of a dict with string keys. -/
def dictCost {α : Type} (cost : α → Nat) (d : Dict String α) : Nat :=
  (varint d.length).length + (d.map fun kv => strCost kv.1 + cost kv.2).sum

theorem pays_dict {α : Type} {value : Reader α} {cost : α → Nat} {z : α} (h : Pays value cost z 1) (hz : cost z ≤ 1) :
    Pays (readDict value) (dictCost cost) [] 3 := by
  have hi := pays_item h hz
  constructor
  · unfold readDict
    rw [Reader.bind_ok (show readVInt [] = .ok (0, []) by decide +kernel)]; rfl
  · intro input d rest hd hne
    unfold readDict at hd
    obtain ⟨n, mid, h1, h2⟩ := Reader.bind_eq_ok.1 hd
    obtain ⟨l, mid', h3, h4⟩ := Reader.bind_eq_ok.1 h2
    have : (Except.ok (Dict.ofItems l, mid') : Except Err (Dict String α × Bytes)) = .ok (d, rest) := h4
    cases this
    have h5 := (vint_pays h1).2.2 hne
    obtain ⟨g1, p, m, rfl, g2⟩ := pays_times hi _ _ _ _ h3
    have h6 := (ofItems_cost (fun kv => strCost kv.1 + cost kv.2) (p ++ List.replicate m ("", z))).1
    have h7 := ofItems_cost_replicate (fun kv => strCost kv.1 + cost kv.2) p m ("", z)
    have h8 : (varint (Dict.ofItems (p ++ List.replicate m ("", z))).length).length ≤ (varint n.toNat).length :=
      varint_length_mono (by omega)
    have h9 : strCost "" = 1 := by decide +kernel
    simp only [h9] at h7
    unfold dictCost
    rcases g2 with ⟨g2, g3⟩ | ⟨g2, g3⟩
    · by_cases hm : m = 0
      · left; rw [if_pos hm] at h7; omega
      · right; rw [if_neg hm] at h7; have := g3 hm; subst this; exact ⟨rfl, by simp only [List.length_nil] at g2; omega⟩
    · right
      refine ⟨g2, ?_⟩
      split at h7 <;> omega

theorem pays_stringDict : Pays readStringDict (dictCost strCost) [] 3 :=
  pays_dict ⟨pays_string.eof, fun i a r h hne => (pays_string.pays i a r h hne).imp_right fun ⟨e1, e2⟩ => ⟨e1, by omega⟩⟩
    (by decide +kernel)

theorem pays_setDict : Pays readStringSetDict (dictCost arrCost) [] 3 := pays_dict pays_set (by decide +kernel)

def ctxCost (c : ThreadContext) : Nat := dictCost strCost c.request_headers + dictCost arrCost c.response_headers

theorem dictCost_nil {α : Type} (cost : α → Nat) : dictCost cost [] = 1 := by
  unfold dictCost
  have : (varint 0).length = 1 := by decide +kernel
  simpa using this

/-- A thread context takes at most 4 bytes more than it was read from. -/
theorem ctx_pays {input rest : Bytes} {c : ThreadContext} (h : ThreadContext.readFrom input = .ok (c, rest)) :
    ctxCost c + rest.length ≤ input.length + 4 := by
  unfold ThreadContext.readFrom at h
  obtain ⟨a, mid, h1, h2⟩ := Reader.bind_eq_ok.1 h
  obtain ⟨b, mid', h3, h4⟩ := Reader.bind_eq_ok.1 h2
  have : (Except.ok (⟨a, b⟩, mid') : Except Err (ThreadContext × Bytes)) = .ok (c, rest) := h4
  cases this
  unfold ctxCost
  simp only
  have hb : mid = [] → b = [] ∧ rest = [] := by
    rintro rfl; rw [pays_setDict.eof] at h3; cases h3; exact ⟨rfl, rfl⟩
  have key : ∀ m, dictCost strCost a + mid.length ≤ m ∨ mid = [] ∧ dictCost strCost a ≤ m + 3 →
      dictCost strCost a + dictCost arrCost b + rest.length ≤ m + 4 := by
    intro m hm
    by_cases hmid : mid = []
    · obtain ⟨rfl, rfl⟩ := hb hmid
      rw [dictCost_nil]
      simp only [List.length_nil]
      rcases hm with e | ⟨_, e⟩ <;> omega
    · rcases hm with e | ⟨e, _⟩
      · rcases pays_setDict.pays _ _ _ h3 hmid with f | ⟨f1, f2⟩
        · omega
        · subst f1; simp; omega
      · exact absurd e hmid
  apply key
  by_cases hne : input = []
  · subst hne
    rw [pays_stringDict.eof] at h1
    cases h1
    right; exact ⟨rfl, by rw [dictCost_nil]; simp⟩
  · exact pays_stringDict.pays _ _ _ h1 hne

end Verif
