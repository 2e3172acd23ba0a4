import Verif.Props.Peers
/-!
# C93, exactly: which initialise-extension request is answered
-/

namespace Verif
open Py StreamInput StreamOutput

variable {σ H : Type}

/-- The stored initialise response is the one there was before, or that of a request of the history, and no later
initialisation of the history made the host send anything. -/
theorem History.init_last {env : Ext σ H} {s0 s : Host σ} {l : List Exchange} (h : History env s0 l s)
    {r : OutboundResponse} (hr : s.init = some r) :
    s0.init = some r ∨ ∃ l1 e l2, l = l1 ++ e :: l2 ∧ (∀ x ∈ l2, Initialises x.input → ∀ out, x.output ≠ .ok (some out)) ∧
      ∃ req body ids, IsRequest e.input req body ∧ req.action = "internal:discovery/extensions" ∧
      IsInitResponse env r req ids := by
  induction h with
  | start => exact .inl hr
  | @input l s ch raw h ih =>
    by_cases hc : Initialises raw ∧ ∃ out, (onInput env ch s raw).2 = .ok (some out)
    · obtain ⟨hi, out, ho⟩ := hc
      obtain ⟨r0, req, body, ids, z1, z2, z3, z4⟩ := init_stored hi ho
      rw [hr] at z1
      cases z1
      exact .inr ⟨l, ⟨raw, _⟩, [], rfl, by simp, req, body, ids, z2, z3, z4⟩
    have keep : s.init = some r → s0.init = some r ∨ ∃ l1 e l2, l ++ [⟨raw, (onInput env ch s raw).2⟩] = l1 ++ e :: l2 ∧
        (∀ x ∈ l2, Initialises x.input → ∀ out, x.output ≠ .ok (some out)) ∧
        ∃ req body ids, IsRequest e.input req body ∧ req.action = "internal:discovery/extensions" ∧
        IsInitResponse env r req ids := by
      intro g
      rcases ih g with g | ⟨l1, e, l2, rfl, g2, g3⟩
      · exact .inl g
      · refine .inr ⟨l1, e, l2 ++ [⟨raw, (onInput env ch s raw).2⟩], by simp, ?_, g3⟩
        intro x hx
        rcases List.mem_append.1 hx with hx | hx
        · exact g2 x hx
        · rw [List.mem_singleton.1 hx]
          intro hi out ho
          exact hc ⟨hi, out, ho⟩
    rcases onInput_effect env ch s raw with ⟨_, h1, _⟩ | ⟨resp, body, q, he, _, h1, _⟩ |
      ⟨req, body, q, ha, i, sreq, response, hi, h1, hsr, h2, h3, h4, _⟩
    · exact keep (by rw [← h1]; exact hr)
    · exact keep (by rw [← h1]; exact hr)
    · rw [h4] at hr
      cases hr
      exact .inr ⟨l, ⟨raw, _⟩, [], rfl, by simp, req, body, _, q, ha, h3⟩
  | other n d x h hn ih => exact ih hr

/-- C93, exactly: whatever the peers do, a response that does not answer the request just read answers the *last*
initialise-extension request that was accepted, on whatever connection `d` that was read.  So it is sent to the peer that
asked exactly if that is the connection `c`; if it is another connection and no request read on `c` has its id, the
response answers nothing that was asked on `c`. -/
theorem C93_exact_violated (env : Ext σ H) {s : Host σ} {S : Server σ} {es : List (Event σ)}
    (h : (Server.start s).run env es = some S) (hs : Started s)
    (hid : ∀ x ∈ exchanges env s es, ∀ req body, IsRequest x.2.input req body → req.tcp_header.request_id ≠ 0)
    (pre post : List (Nat × Exchange)) (c : Nat) (e : Exchange) (hl : exchanges env s es = pre ++ (c, e) :: post)
    (out : Bytes) (ho : e.output = .ok (some out)) (r : OutboundResponse) (rbody : Bytes) (hr : IsResponse out r rbody) :
    (∃ req body, IsRequest e.input req body ∧ ∃ b, Answers out req b) ∨
    ∃ p1 d e0 p2 req body, pre = p1 ++ (d, e0) :: p2 ∧
      (∀ x ∈ p2, Initialises x.2.input → ∀ out, x.2.output ≠ .ok (some out)) ∧
      IsRequest e0.input req body ∧ req.action = "internal:discovery/extensions" ∧ (∃ b, Answers out req b) ∧
      ∀ e' req' body', (c, e') ∈ pre → IsRequest e'.input req' body' →
        req'.tcp_header.request_id ≠ req.tcp_header.request_id → ∀ b, ¬ Answers out req' b := by
  have hH : History env s ((exchanges env s es).map (·.2)) S.host := run_history h
  have hl' : (exchanges env s es).map (·.2) = pre.map (·.2) ++ e :: post.map (·.2) := by rw [hl]; simp
  obtain ⟨s1, ch, h1, h2⟩ := hH.event hl'
  have hI := (h1.reachable hs).inv
  rw [ho] at h2
  have hx : onInput env ch s1 e.input = ((onInput env ch s1 e.input).1, .ok (some out)) := Prod.ext rfl h2.symm
  rcases outputs_cases env ch s1 hI e.input out _ hx with ⟨req, b, rb, g1, g2, g3⟩ | ⟨_, q, b, g1, _⟩ |
    ⟨_, q, b, _, _, g1, _⟩ | ⟨a, r', b, hresp, _, g1, _⟩
  · exact .inl ⟨req, b, g1, rb, g3 (hid (c, e) (by rw [hl]; simp) req b g1)⟩
  · exact (g1.not_response hr).elim
  · exact (g1.not_response hr).elim
  right
  obtain ⟨resp, body, x1, x2, x3⟩ := hresp
  obtain ⟨rr, hi, w1, w2⟩ := response_is_init hI x1 x2 h2.symm hr
  rcases h1.init_last hi with g | ⟨l1, e0, l2, hl2, hlast, req, bd, ids, z1, z2, z3⟩
  · rw [hs.2] at g; cases g
  obtain ⟨p1, t1, rfl, m1, m2⟩ := List.map_eq_append_iff.1 hl2
  obtain ⟨⟨d, y⟩, p2, rfl, m3, m4⟩ := List.map_eq_cons_iff.1 m2
  simp only at m3
  subst m3 m4
  have hrep := (response_on_wire ch.ho z3 (parsesAsRequest_ok z1.1).2.2 w1).2
  have w2' : (rr.toOutboundMessage.writeTo ch.ho).out = out := w2
  rw [w2'] at hrep
  have hch : chosenId (some req.tcp_header.request_id) ids = req.tcp_header.request_id := by
    have := hid (d, y) (by rw [hl]; simp) req bd z1
    unfold chosenId; simp [this]
  rw [hch] at hrep
  refine ⟨p1, d, y, p2, req, bd, rfl, fun x hx => hlast _ (List.mem_map_of_mem hx), z1, z2, ⟨_, hrep⟩, ?_⟩
  intro e' req' body' _ _ hne b hb
  exact hne (ReplyIs.unique hb hrep).1

/-- The run of `C93_violated` meets the hypotheses: a run from a host just set up, in which all ids differ from 0. -/
example : (∃ S, (Server.start sampleHost).run sampleExt crossedRun = some S) ∧ Started sampleHost ∧
    ∀ x ∈ exchanges sampleExt sampleHost crossedRun, ∀ req body, IsRequest x.2.input req body →
      req.tcp_header.request_id ≠ 0 := by
  refine ⟨Option.isSome_iff_exists.1 (by decide +kernel), sampleHost_started, ?_⟩
  rw [crossed_exchanges]
  intro x hx q bq hq
  obtain ⟨req2, b2, r1, r2, r3⟩ := crossedInit2
  obtain ⟨req1, b1, t1, t2⟩ := crossedInit1
  simp only [List.mem_cons, List.not_mem_nil, or_false] at hx
  rcases hx with rfl | rfl | rfl | rfl
  · rw [sampleEvent1_input] at hq
    obtain ⟨rfl, _⟩ := t1.unique hq
    omega
  · rw [crossedEvent2_input] at hq
    obtain ⟨rfl, _⟩ := r1.unique hq
    omega
  · obtain ⟨_, _, y1, _⟩ := responseFrame_responds (sampleAck_ok true)
    rw [crossedEvent3_input] at hq
    exact (hq.not_response y1).elim
  · obtain ⟨_, _, y1, _⟩ := responseFrame_responds sampleSettingsFrame_ok
    rw [crossedEvent4_input] at hq
    exact (hq.not_response y1).elim

end Verif
