import Verif.Lemmas.HostState
import Verif.Spec.History
/-! The invariant of reachable host states. -/

namespace Verif
open Py

variable {σ H : Type}

/-- What holds in every reachable state. -/
structure Inv (env : Ext σ H) (s : Host σ) : Prop where
  wf : s.pending.WF
  range : ∀ k : Int, k ∈ s.pending.map (·.1) → 0 ≤ k ∧ k < s.ids
  reg : ∀ k n, (k, Pending.registerRest n) ∈ s.pending →
    ∃ ctx f i, CtxOK ctx ∧ StrsOK f ∧ k = ((i + 1 : Nat) : Int) ∧ IsSettingsRequest n ctx f i
  init : ∀ r, s.init = some r → ∃ req ids, CtxOK req.ctx ∧ IsInitResponse env r req ids

theorem Inv.started {env : Ext σ H} {s : Host σ} (h : Started s) : Inv env s := by
  obtain ⟨h1, h2⟩ := h
  constructor
  · rw [h1]; exact Dict.WF.nil
  · rw [h1]; simp
  · rw [h1]; simp
  · rw [h2]; simp

theorem not_mem_of_range {env : Ext σ H} {s : Host σ} (h : Inv env s) {i : Nat} (hi : s.ids ≤ i) :
    (i : Int) ∉ s.pending.map (·.1) := fun hm => by
  have := (h.range _ hm).2; omega

/-- After an initialisation, the table is the old one plus two entries at the end. -/
theorem set_two {env : Ext σ H} {s : Host σ} (h : Inv env s) {i : Nat} (hi : s.ids ≤ i) (a b : Pending) :
    (s.pending.set (i : Int) a).set ((i + 1 : Nat) : Int) b = s.pending ++ [((i : Int), a), (((i + 1 : Nat) : Int), b)] := by
  rw [Dict.set_of_not_mem (not_mem_of_range h hi), Dict.set_of_not_mem]
  · simp
  · rw [List.map_append, List.mem_append]
    rintro (hm | hm)
    · exact not_mem_of_range h (i := i + 1) (by omega) hm
    · simp at hm

theorem Inv.step {env : Ext σ H} {raw : Bytes} {s s' : Host σ} (h : Inv env s)
    (e : StepEffect env raw s s') : Inv env s' := by
  cases e with
  | quiet h1 h2 h3 h4 =>
    constructor
    · rw [h1]; exact h.wf
    · rw [h1]; intro k hk; have := h.range k hk; omega
    · rw [h1]; exact h.reg
    · rw [h2]; exact h.init
  | response resp body hr he h1 h2 h4 =>
    have hsub := Dict.erase_sublist s.pending resp.tcp_header.request_id
    constructor
    · rw [h1]; exact h.wf.erase _
    · rw [h1]; intro k hk
      have := h.range k ((hsub.map _).subset hk); omega
    · rw [h1]; intro k n hk; exact h.reg k n (hsub.subset hk)
    · rw [h2]; exact h.init
  | init req body hr ha i sreq response hi h1 hs h2 hresp h3 h4 =>
    have hge := idsAfter_ge (some req.tcp_header.request_id) (s.ids + 2)
    have hle : s.ids ≤ i := by omega
    have hctx := (parsesAsRequest_ok hr.1).2.2
    have e := set_two h hle .settings (.registerRest sreq)
    constructor
    · rw [h2]; exact (h.wf.set _ _).set _ _
    · rw [h2, e, h1]; intro k hk
      rw [List.map_append, List.mem_append] at hk
      rcases hk with hk | hk
      · have := h.range k hk; omega
      · simp at hk; omega
    · rw [h2, e]; intro k n hk
      rw [List.mem_append] at hk
      rcases hk with hk | hk
      · exact h.reg k n hk
      · simp only [List.mem_cons, Prod.mk.injEq, List.not_mem_nil, or_false, reduceCtorEq, and_false, false_or,
          Pending.registerRest.injEq] at hk
        obtain ⟨rfl, rfl⟩ := hk
        exact ⟨_, _, i, hctx, parsesAsRequest_features hr.1, rfl, hs⟩
    · rw [h3]; intro r hr'
      cases hr'
      exact ⟨req, _, hctx, hresp⟩

theorem Inv.onInput {env : Ext σ H} {s : Host σ} (h : Inv env s) (ch : Choice) (raw : Bytes) :
    Inv env (onInput env ch s raw).1 := h.step (onInput_effect env ch s raw)

theorem Inv.other {env : Ext σ H} {s : Host σ} (h : Inv env s) {n : Nat} (hn : s.ids ≤ n)
    (d : Dict String PyVal) (x : σ) : Inv env { s with ids := n, settings := d, ext := x } := by
  refine ⟨h.wf, fun k hk => ?_, h.reg, h.init⟩
  have := h.range k hk
  simp only; omega

theorem Inv.evolves {env : Ext σ H} {P : Bytes → Prop} {s s' : Host σ} (h : Inv env s)
    (e : Evolves env P s s') : Inv env s' := by
  induction e with
  | refl => exact h
  | input ch raw _ _ ih => exact ih.onInput ch raw
  | other n d x _ hn ih => exact ih.other hn d x

theorem Reachable.inv {env : Ext σ H} {s : Host σ} (h : Reachable env s) : Inv env s := by
  obtain ⟨s0, h0, e⟩ := h
  exact (Inv.started h0).evolves e

theorem Evolves.mono {env : Ext σ H} {P Q : Bytes → Prop} (hpq : ∀ b, P b → Q b) {s s' : Host σ}
    (e : Evolves env P s s') : Evolves env Q s s' := by
  induction e with
  | refl => exact .refl
  | input ch raw _ hp ih => exact .input ch raw ih (hpq raw hp)
  | other n d x _ hn ih => exact .other n d x ih hn

theorem Evolves.trans {env : Ext σ H} {P : Bytes → Prop} {s s' s'' : Host σ} (e : Evolves env P s s')
    (e' : Evolves env P s' s'') : Evolves env P s s'' := by
  induction e' with
  | refl => exact e
  | input ch raw _ hp ih => exact .input ch raw ih hp
  | other n d x _ hn ih => exact .other n d x ih hn

theorem Reachable.evolves {env : Ext σ H} {P : Bytes → Prop} {s s' : Host σ} (h : Reachable env s)
    (e : Evolves env P s s') : Reachable env s' := by
  obtain ⟨s0, h0, e0⟩ := h
  exact ⟨s0, h0, e0.trans (e.mono fun _ _ => trivial)⟩

/-- The counter never goes back. -/
theorem onInput_ids (env : Ext σ H) (ch : Choice) (s : Host σ) (raw : Bytes) :
    s.ids ≤ (onInput env ch s raw).1.ids := by
  rcases onInput_effect env ch s raw with ⟨_, _, _, h⟩ | ⟨_, _, _, _, _, _, h⟩ | ⟨req, _, _, _, i, _, _, hi, h, _⟩
  · exact h
  · exact h
  · have := idsAfter_ge (some req.tcp_header.request_id) (s.ids + 2)
    omega

theorem Evolves.ids {env : Ext σ H} {P : Bytes → Prop} {s s' : Host σ} (e : Evolves env P s s') :
    s.ids ≤ s'.ids := by
  induction e with
  | refl => exact Nat.le_refl _
  | input ch raw _ _ ih => exact ih.trans (onInput_ids env ch _ raw)
  | other n d x _ hn ih => exact ih.trans hn

/-- What is known of a response decoded twice: parsing is a function. -/
theorem IsResponse.unique {raw : Bytes} {r r' : OutboundResponse} {b b' : Bytes} (h : IsResponse raw r b)
    (h' : IsResponse raw r' b') : r = r' ∧ b = b' := by
  obtain ⟨bl, hd, rest, h1, h2, h3⟩ := (parsesAsResponse_iff 0).1 h.1
  obtain ⟨bl', hd', rest', h1', h2', h3'⟩ := (parsesAsResponse_iff 0).1 h'.1
  rw [h1] at h1'
  simp only [Prod.mk.injEq, Except.ok.injEq, and_true] at h1'
  rw [h2] at h2'
  simp only [Except.ok.injEq, Prod.mk.injEq] at h2'
  obtain ⟨rfl, rfl⟩ := h2'
  subst h1'
  rw [h3] at h3'
  simpa using h3'

theorem IsRequest.unique {raw : Bytes} {r r' : OutboundRequest} {b b' : Bytes} (h : IsRequest raw r b)
    (h' : IsRequest raw r' b') : r = r' ∧ b = b' := by
  obtain ⟨bl, hd, rest, h1, h2, h3⟩ := (parsesAsRequest_iff 0).1 h.1
  obtain ⟨bl', hd', rest', h1', h2', h3'⟩ := (parsesAsRequest_iff 0).1 h'.1
  rw [h1] at h1'
  simp only [Prod.mk.injEq, Except.ok.injEq, and_true] at h1'
  rw [h2] at h2'
  simp only [Except.ok.injEq, Prod.mk.injEq] at h2'
  obtain ⟨rfl, rfl⟩ := h2'
  subst h1'
  rw [h3] at h3'
  simpa using h3'

/-- No bytes are both a request and a response. -/
theorem IsRequest.not_response {raw : Bytes} {r : OutboundRequest} {r' : OutboundResponse} {b b' : Bytes}
    (h : IsRequest raw r b) (h' : IsResponse raw r' b') : False := by
  obtain ⟨bl, hd, rest, h1, h2, h3⟩ := (parsesAsRequest_iff 0).1 h.1
  obtain ⟨bl', hd', rest', h1', h2', h3'⟩ := (parsesAsResponse_iff 0).1 h'.1
  rw [h2] at h2'
  simp only [Except.ok.injEq, Prod.mk.injEq] at h2'
  obtain ⟨rfl, rfl⟩ := h2'
  have e1 := h.2
  have e2 := h'.2
  rw [(request_readFrom_ok h3).1] at e1
  rw [(response_readFrom_ok h3').1] at e2
  unfold TcpHeader.isRequest at e1
  rw [e2] at e1; simp at e1

end Verif
