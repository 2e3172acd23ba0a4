import Verif.Lemmas.HostInv
/-! What the host sends. -/

namespace Verif
open Py

variable {σ H : Type}

/-- A request the host sends, as the peer decodes it. -/
theorem sent_request {ho : HashOrder} {ctx : ThreadContext} {f : List String} {w : W} {a : String} {i i' : Nat}
    {n : OutboundRequest} {out : Bytes}
    (h : OutboundRequest.new (some ctx) f (some w) minCompat a none false false i = (.ok n, i'))
    (hc : CtxOK ctx) (hf : StrsOK f) (ha : StrOK a) (hw : written (n.writeTo ho) = .ok (some out)) :
    ∃ q, IsRequest out q w.out ∧ q.tcp_header.request_id = i ∧ SameContext q.ctx ctx ∧ q.features = f ∧
      q.action = a := by
  obtain ⟨h1, h2⟩ := written_ok.1 hw
  have hfit := header_fits_of_ok (message_header_ok h1)
  rw [requestNew_id h] at hfit
  obtain ⟨q, q1, q2, _, _, q5, q6, q7, _⟩ := request_on_wire ho h hc hf ha minCompat_range.1 minCompat_range.2
    hfit.2.1 hfit.2.2 hfit.1 []
  simp only [List.append_nil] at q1
  have h2' : (n.toOutboundMessage.writeTo ho).out = out := h2
  rw [h2'] at q1
  exact ⟨q, q1, q2, q5, q6, q7⟩

theorem settingsAction_ok : StrOK "internal:discovery/enviornmentsettings" := by decide +kernel
theorem registerAction_ok : StrOK "internal:discovery/registerrestactions" := by decide +kernel

/-- The two ways a request is sent: an initialisation sends the registration, and a positive answer to
a registration sends the settings request behind it. -/
theorem onInput_sends_request {env : Ext σ H} {ch : Choice} {s s' : Host σ} {raw out : Bytes} (hI : Inv env s)
    {q : OutboundRequest} {b : Bytes} (h : onInput env ch s raw = (s', .ok (some out))) (hq : IsRequest out q b) :
    (Initialises raw ∧ ∃ (i : Nat) (sreq : OutboundRequest), s.ids ≤ i ∧ s'.ids = i + 2 ∧
        q.tcp_header.request_id = ((i + 1 : Nat) : Int) ∧ sreq.tcp_header.request_id = i ∧
        s'.pending = s.pending ++ [((i : Int), .settings), (((i + 1 : Nat) : Int), .registerRest sreq)]) ∨
    ∃ (k : Int) (n : OutboundRequest), Responds raw k ∧ s.pending.get? k = some (.registerRest n) ∧
        q.tcp_header.request_id = n.tcp_header.request_id ∧ s'.ids = s.ids + 2 ∧
        s'.pending = s.pending.erase k ∧ s'.init = s.init ∧
        ∃ resp body rest, IsResponse raw resp body ∧ resp.tcp_header.request_id = k ∧
          AcknowledgedResponse.readFrom body = .ok (⟨true⟩, rest) := by
  rcases onInput_cases env ch s raw with ⟨req, body, hr⟩ | ⟨resp, body, hr⟩ | ⟨n, e, he⟩
  · rw [onInput_request hr] at h
    by_cases ha : req.action = "internal:discovery/extensions"
    · left
      have e : handleRequest env ch { s with ids := s.ids + 2 } req body =
          handleInit env ch { s with ids := s.ids + 2 } req body := by
        unfold handleRequest; rw [if_pos ha]
      rw [e] at h
      refine ⟨⟨req, body, hr, ha⟩, ?_⟩
      cases hb : InitializeExtensionRequest.readFrom body with
      | error e =>
        have : handleInit env ch { s with ids := s.ids + 2 } req body = ({ s with ids := s.ids + 2 }, .error e) := by
          unfold handleInit; rw [hb]
        rw [this] at h; simp at h
      | ok p =>
        obtain ⟨m, rest⟩ := p
        obtain ⟨response, sreq, rreq, i, hi, h1, h2, h3, h4⟩ :=
          handleInit_ok env ch { s with ids := s.ids + 2 } req hb
        rw [h4] at h
        simp only [Prod.mk.injEq] at h
        obtain ⟨rfl, h5⟩ := h
        obtain ⟨q', q1, q2, _⟩ := sent_request h3 (parsesAsRequest_ok hr.1).2.2 (parsesAsRequest_features hr.1)
          registerAction_ok h5
        have := idsAfter_ge (some req.tcp_header.request_id) (s.ids + 2)
        have hle : s.ids ≤ i := by simp only at hi; omega
        refine ⟨i, sreq, hle, rfl, ?_, requestNew_id h2, set_two hI hle _ _⟩
        rw [(hq.unique q1).1, q2]
    · obtain ⟨s1, e1, e2, e3, e4, ⟨e, he⟩ | ⟨w, hw⟩⟩ := handleRequest_sends env ch { s with ids := s.ids + 2 } req body ha
      · rw [he] at h; simp at h
      · rw [hw] at h
        obtain ⟨_, r, hr', _⟩ := sendReply_sent (parsesAsRequest_ok hr.1).2.2 h
        exact (hq.not_response hr').elim
  · rw [onInput_response hr] at h
    cases he : resp.tcp_header.isError with
    | true => rw [he] at h; simp at h
    | false =>
      rw [he] at h
      simp only [Bool.false_eq_true, if_false] at h
      unfold handleResponse at h
      cases hg : s.pending.get? resp.tcp_header.request_id with
      | none => simp only [hg] at h; simp at h
      | some p =>
        simp only [hg] at h
        cases p with
        | registerRest n =>
          right
          simp only at h
          unfold handleRegistered at h
          cases hb : AcknowledgedResponse.readFrom body with
          | error e => rw [hb] at h; simp at h
          | ok p =>
            obtain ⟨ack, rest⟩ := p
            rw [hb] at h
            simp only at h
            cases hs : ack.status with
            | false => rw [hs] at h; simp at h
            | true =>
              rw [hs] at h
              simp only [if_true, Prod.mk.injEq] at h
              obtain ⟨rfl, h5⟩ := h
              obtain ⟨ctx, f, i, c1, c2, c3, c4⟩ := hI.reg _ n (Dict.get?_mem hg)
              obtain ⟨q', q1, q2, _⟩ := sent_request c4 c1 c2 settingsAction_ok h5
              refine ⟨resp.tcp_header.request_id, n, ⟨resp, body, hr, he, rfl⟩, hg, ?_, rfl, rfl, rfl, resp, body, rest,
                hr, rfl, ?_⟩
              · rw [(hq.unique q1).1, q2, requestNew_id c4]; rfl
              · rw [hb]; cases ack; simp only at hs; rw [hs]
        | settings =>
          simp only at h
          unfold handleSettings at h
          cases hsr : Settings.readFrom env.depth s.settings body with
          | mk d x =>
            cases x with
            | error e => simp only [hsr] at h; simp at h
            | ok rest =>
              simp only [hsr, Prod.mk.injEq] at h
              cases hi : s.init with
              | none => simp [hi] at h
              | some r =>
                simp only [hi] at h
                obtain ⟨rq, ids, c1, c2⟩ := hI.init r hi
                obtain ⟨w1, w2⟩ := written_ok.1 h.2
                obtain ⟨_, r', hr', _⟩ := response_on_wire ch.ho c2 c1 w1
                have w2' : (r.toOutboundMessage.writeTo ch.ho).out = out := w2
                rw [w2'] at hr'
                exact (hq.not_response hr').elim
  · rw [he] at h; simp at h

end Verif
