import Verif.Spec.Ids
import Verif.Lemmas.Host
/-!
# C35: generated request ids are fresh
-/

namespace Verif
open Py

namespace Construction

theorem run_facts (c : Construction) (ids : Nat) :
    (c.run ids).2 = idsAfter c.idArg ids ∧ ∀ i, (c.run ids).1 = some i → i = chosenId c.idArg ids := by
  cases c with
  | header v st rid =>
    refine ⟨headerNew_ids v st rid ids, fun i hi => ?_⟩
    have := headerNew_id v st rid ids
    simp only [run, Option.some.injEq] at hi
    rw [← hi, this]; rfl
  | message ctx v st rid msg =>
    refine ⟨messageNew_ids ctx v st rid msg ids, fun i hi => ?_⟩
    simp only [run] at hi
    rcases hn : OutboundMessage.new ctx v st rid msg ids with ⟨x, ids'⟩
    rw [hn] at hi
    cases x with
    | error e => simp [Except.toOption] at hi
    | ok m =>
      simp only [Except.toOption, Option.map_some, Option.some.injEq] at hi
      rw [← hi, (new_ok hn).2]; exact headerNew_id _ _ _ _
  | request ctx f msg v a rid hs cp =>
    refine ⟨requestNew_ids ctx f msg v a rid hs cp ids, fun i hi => ?_⟩
    simp only [run] at hi
    rcases hn : OutboundRequest.new ctx f msg v a rid hs cp ids with ⟨x, ids'⟩
    rw [hn] at hi
    cases x with
    | error e => simp [Except.toOption] at hi
    | ok m =>
      simp only [Except.toOption, Option.map_some, Option.some.injEq] at hi
      rw [← hi]; exact requestNew_id hn
  | response ctx f msg v rid hs cp =>
    refine ⟨responseNew_ids ctx f msg v rid hs cp ids, fun i hi => ?_⟩
    simp only [run] at hi
    rcases hn : OutboundResponse.new ctx f msg v rid hs cp ids with ⟨x, ids'⟩
    rw [hn] at hi
    cases x with
    | error e => simp [Except.toOption] at hi
    | ok m =>
      simp only [Except.toOption, Option.map_some, Option.some.injEq] at hi
      rw [← hi]; exact responseNew_id hn

theorem generatedIds_facts (cs : List Construction) (ids : Nat) :
    (generatedIds cs ids).Pairwise (· < ·) ∧ ∀ i ∈ generatedIds cs ids, (ids : Int) ≤ i := by
  induction cs generalizing ids with
  | nil => exact ⟨List.Pairwise.nil, by simp [generatedIds]⟩
  | cons c cs ih =>
    obtain ⟨f1, f2⟩ := run_facts c ids
    rcases hr : c.run ids with ⟨o, ids'⟩
    rw [hr] at f1 f2
    simp only at f1 f2
    obtain ⟨ih1, ih2⟩ := ih ids'
    simp only [generatedIds, hr]
    by_cases hg : c.generated = true
    · have hg' := hg
      simp only [generated, decide_eq_true_eq] at hg'
      have e1 : ids' = ids + 1 := by
        rw [f1]; unfold idsAfter; rcases hg' with h | h <;> rw [h] <;> simp
      have e2 : chosenId c.idArg ids = ids := by
        unfold chosenId; rcases hg' with h | h <;> rw [h] <;> simp
      rw [if_pos hg]
      cases o with
      | none =>
        simp only [Option.toList_none, List.nil_append]
        exact ⟨ih1, fun i hi => by have := ih2 i hi; omega⟩
      | some j =>
        have := f2 j rfl
        simp only [Option.toList_some, List.singleton_append]
        refine ⟨List.pairwise_cons.2 ⟨fun i hi => by have := ih2 i hi; omega, ih1⟩, ?_⟩
        intro i hi
        rcases List.mem_cons.1 hi with rfl | hi
        · omega
        · have := ih2 i hi; omega
    · have e1 : ids ≤ ids' := by
        rw [f1]; unfold idsAfter; split <;> (try split) <;> omega
      rw [if_neg hg, List.nil_append]
      exact ⟨ih1, fun i hi => by have := ih2 i hi; omega⟩

end Construction

/-- C35: over every history of constructions (headers and messages, with or without explicit ids,
succeeding or raising), the generated ids are strictly increasing, hence pairwise distinct. -/
theorem C35_fresh (cs : List Construction) (ids : Nat) :
    (Construction.generatedIds cs ids).Pairwise (· < ·) ∧
    (Construction.generatedIds cs ids).Nodup :=
  ⟨(Construction.generatedIds_facts cs ids).1,
   (Construction.generatedIds_facts cs ids).1.imp fun h => Int.ne_of_lt h⟩

/-- C35, the other half: an explicit non-zero id is used as given and leaves the counter alone. -/
theorem C35_explicit (c : Construction) (ids : Nat) (i j : Int) (hi : c.idArg = some i) (h0 : i ≠ 0)
    (hj : (c.run ids).1 = some j) : j = i ∧ (c.run ids).2 = ids := by
  obtain ⟨h1, h2⟩ := Construction.run_facts c ids
  rw [h2 j hj, h1, hi]
  unfold chosenId idsAfter
  simp [h0]

example := C35_explicit (.header (.obj (Version.new 3000099)) 0 (some 5)) 3 5 5 rfl (by decide) rfl

example : Construction.generatedIds [.header .none 0 none, .header .none 0 (some 7),
    .request none [] (some (W.fail .overflow)) .none "a" none false false,
    .response none [] none .none (some 0) true false] 5 = [5, 7] := by decide +kernel

end Verif
