import Verif.Lemmas.Rest
import Verif.Props.Rest

/-!
# C30: a response lists the consumed parameters in order

The consumed parameters are a Python set, whose iteration order is arbitrary; the response writes
them sorted, so the order in which a handler consumed them cannot be seen in the bytes.
-/

namespace Verif
open Py StreamInput StreamOutput

theorem insertSorted_pairwise (x : String) (l : List String) (h : l.Pairwise (· ≤ ·)) :
    (insertSorted x l).Pairwise (· ≤ ·) := by
  induction l with
  | nil => simp [insertSorted]
  | cons y ys ih =>
    rw [List.pairwise_cons] at h
    unfold insertSorted
    by_cases hxy : x ≤ y
    · rw [if_pos hxy, List.pairwise_cons, List.pairwise_cons]
      refine ⟨fun z hz => ?_, h⟩
      rcases List.mem_cons.1 hz with rfl | hz
      · exact hxy
      · exact String.le_trans hxy (h.1 z hz)
    · rw [if_neg hxy, List.pairwise_cons]
      refine ⟨fun z hz => ?_, ih h.2⟩
      rcases List.mem_cons.1 ((insertSorted_perm x ys).mem_iff.1 hz) with rfl | hz
      · exact (String.le_total y z).resolve_right hxy
      · exact h.1 z hz

theorem sorted_pairwise (l : List String) : (sorted l).Pairwise (· ≤ ·) := by
  induction l with
  | nil => exact List.Pairwise.nil
  | cons x xs ih => exact insertSorted_pairwise x _ ih

/-- C30, order on the wire: whatever order the parameters were consumed in, a response writes them
each once in ascending code point order, between the headers and the content flag. -/
theorem C30_sorted (r : ExtensionRestResponse) :
    ∃ ps : List String, ps.Perm r.consumed_params ∧
      ps.Pairwise (fun a b => a.toList ≤ b.toList) ∧
      r.writeTo = writeEnumOpt r.status ++ (writeVInt r.content.length ++ (W.emit r.content ++
        (writeString r.content_type ++ (writeStringArrayDict r.headers ++
        (writeStringArray ps ++ writeBoolean r.content_consumed))))) :=
  ⟨sorted r.consumed_params, sorted_perm _,
    (sorted_pairwise _).imp (fun h => h), rfl⟩

/-- C30, order on the wire: two responses that differ only in the order in which their parameters
were consumed write the same bytes. -/
theorem C30_order (r : ExtensionRestResponse) (ps : List String) (h : ps.Perm r.consumed_params) :
    { r with consumed_params := ps }.writeTo = r.writeTo := by
  have : sorted ps = sorted r.consumed_params :=
    ((sorted_perm ps).trans (h.trans (sorted_perm _).symm)).eq_of_pairwise
      (fun a b _ _ h1 h2 => String.le_antisymm h1 h2) (sorted_pairwise _) (sorted_pairwise _)
  unfold ExtensionRestResponse.writeTo
  rw [this]

/-- C30, a response built without a request reports nothing as consumed. -/
theorem C30_alone (st : Option RestStatus) (c : Bytes) (ct : String) (hs : Dict String (List String)) :
    ExtensionRestResponse.new none st c ct hs =
      { status := st, content := c, content_type := ct, headers := hs, consumed_params := [], content_consumed := false } :=
  rfl

/-- Two orders of the same two parameters, one response each. -/
example : ({ status := some .OK, consumed_params := ["z", "a"] } : ExtensionRestResponse).writeTo =
    ({ status := some .OK, consumed_params := ["a", "z"] } : ExtensionRestResponse).writeTo :=
  C30_order { status := some .OK, consumed_params := ["a", "z"] } ["z", "a"] (List.Perm.swap _ _ _)

/-- The order is not the order of consumption. -/
example : sorted ["z", "a", "é", "B"] = ["B", "a", "z", "é"] := by decide +kernel

end Verif
