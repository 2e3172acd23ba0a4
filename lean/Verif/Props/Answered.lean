import Verif.Spec.Answered
import Verif.Props.Framing
/-!
# C51: which requests are answered
-/

namespace Verif
open Py StreamInput StreamOutput Spec

variable {σ H : Type}

theorem sendReply_iff (ch : Choice) (s : Host σ) (hids : s.ids + 1 < 2 ^ 63) {req : OutboundRequest} {w : W} (hc : CtxOK req.ctx)
    (hid1 : -(2 ^ 63) ≤ req.tcp_header.request_id) (hid2 : req.tcp_header.request_id < 2 ^ 63) :
    (∃ s' out, sendReply ch s req w = (s', .ok (some out))) ↔
      w.err = none ∧ 17 + req.ctx.size + w.out.length < 2 ^ 31 := by
  have hch : -(2 ^ 63) ≤ chosenId (some req.tcp_header.request_id) s.ids ∧
      chosenId (some req.tcp_header.request_id) s.ids < 2 ^ 63 := by
    unfold chosenId
    simp only
    split <;> omega
  constructor
  · rintro ⟨s', out, h⟩
    refine ⟨(sendReply_sent hc h).1, ?_⟩
    unfold sendReply at h
    rcases hr : replyTo req w s.ids with ⟨x, ids⟩
    rw [hr] at h
    cases x with
    | error e => simp at h
    | ok r =>
      simp only [Prod.mk.injEq] at h
      obtain ⟨h3, h4⟩ := written_ok.1 h.2
      unfold replyTo at hr
      have hfit := (header_fits_of_ok (message_header_ok h3)).1
      have hb : Balanced r.toOutboundMessage := C21_invariant _ (Built.response hr)
      obtain ⟨m, hm, hrr⟩ := responseNew_ok hr
      have k := setFlags_keeps m req.tcp_header.isHandshake req.tcp_header.isCompress
      have e1 := (new_ok hm).2
      have er : r.toOutboundMessage = m.setFlags req.tcp_header.isHandshake req.tcp_header.isCompress := by rw [hrr]
      have c1 : r.ctx = req.ctx := by
        show r.toOutboundMessage.ctx = _
        rw [er, k.2.2.2.2.1, e1]; rfl
      have c2 : r.variable_bytes = none := by
        show r.toOutboundMessage.variable_bytes = _
        rw [er, k.2.2.2.2.2.1, e1]
      have c3 : r.message_bytes = some w.out := by
        show r.toOutboundMessage.message_bytes = _
        rw [er, k.2.2.2.2.2.2, e1]; rfl
      have := hb.1
      rw [c1, c2, c3] at this
      simp only [optLen, Option.getD_none, Option.getD_some, List.length_nil] at this
      omega
  · rintro ⟨h1, h2⟩
    obtain ⟨out, o1, _⟩ := sendReply_fits' ch s hc hch.1 hch.2 h1 h2
    exact ⟨_, out, o1⟩

theorem handleRequest_serves (env : Ext σ H) (ch : Choice) (s : Host σ) (req : OutboundRequest) (body : Bytes)
    (ha : req.action ≠ "internal:discovery/extensions") :
    (∃ w s1, Serves env ch s.ext req.action body w ∧ s1.ids = s.ids ∧ handleRequest env ch s req body = sendReply ch s1 req w) ∨
    ((∃ s' e, handleRequest env ch s req body = (s', .error e)) ∧ ∀ w, ¬ Serves env ch s.ext req.action body w) := by
  unfold handleRequest
  rw [if_neg ha]
  by_cases h1 : req.action = "internal:extensions/restexecuteonextensiontaction"
  · rw [if_pos h1]
    have no : ∀ w, Serves env ch s.ext req.action body w → ∃ r rest m hd x' resp,
        ExtensionRestRequest.readFrom {} body = .ok (r, rest) ∧ r.method = some m ∧
        env.registry.dispatch (m.name ++ " " ++ r.path) = some hd ∧ env.run hd s.ext r = (x', .ok resp) := by
      intro w hw
      cases hw with
      | tcp m rest ha' hb => exact absurd (h1.symm.trans ha') (by decide +kernel)
      | transport m rest ha' hb => exact absurd (h1.symm.trans ha') (by decide +kernel)
      | rest r rest m hd x' resp ha' hb hm hroute hrun => exact ⟨r, rest, m, hd, x', resp, hb, hm, hroute, hrun⟩
      | unknown ha' => exact absurd (by rw [h1]; simp) ha'
    unfold handleRest
    cases hb : ExtensionRestRequest.readFrom {} body with
    | error e =>
      refine .inr ⟨⟨s, e, rfl⟩, fun w hw => ?_⟩
      obtain ⟨r, rest, m, hd, x', resp, q, _⟩ := no w hw
      rw [hb] at q; cases q
    | ok p =>
      obtain ⟨r, rest⟩ := p
      dsimp only
      cases hm : r.method with
      | none =>
        refine .inr ⟨⟨s, _, rfl⟩, fun w hw => ?_⟩
        obtain ⟨r', rest', m, hd, x', resp, q, q2, _⟩ := no w hw
        rw [hb] at q; cases q
        rw [hm] at q2; cases q2
      | some m =>
        dsimp only
        unfold Registry.handle
        cases hd : env.registry.dispatch (m.name ++ " " ++ r.path) with
        | none =>
          refine .inr ⟨⟨_, _, rfl⟩, fun w hw => ?_⟩
          obtain ⟨r', rest', m', hd', x', resp, q, q2, q3, _⟩ := no w hw
          rw [hb] at q; cases q
          rw [hm] at q2; cases q2
          rw [hd] at q3; cases q3
        | some h =>
          dsimp only
          rcases hrun : env.run h s.ext r with ⟨x, resp⟩
          cases resp with
          | error e =>
            refine .inr ⟨⟨_, _, rfl⟩, fun w hw => ?_⟩
            obtain ⟨r', rest', m', hd', x', resp, q, q2, q3, q4⟩ := no w hw
            rw [hb] at q; cases q
            rw [hm] at q2; cases q2
            rw [hd] at q3; cases q3
            rw [hrun] at q4; cases q4
          | ok resp => exact .inl ⟨_, { s with ext := x }, .rest r rest m h x resp h1 hb hm hd hrun, rfl, rfl⟩
  · rw [if_neg h1]
    by_cases h2 : req.action = "internal:tcp/handshake"
    · rw [if_pos h2]
      unfold handleTcpHandshake
      cases hb : HandshakerRequest.readFrom body with
      | error e =>
        refine .inr ⟨⟨s, e, rfl⟩, fun w hw => ?_⟩
        cases hw with
        | tcp m rest ha' hb' => rw [hb] at hb'; cases hb'
        | transport m rest ha' hb => exact absurd (h2.symm.trans ha') (by decide +kernel)
        | rest r rest m hd x' resp ha' => exact h1 ha'
        | unknown ha' => exact absurd (by rw [h2]; simp) ha'
      | ok p => exact .inl ⟨_, s, .tcp p.1 p.2 h2 hb, rfl, rfl⟩
    · rw [if_neg h2]
      by_cases h3 : req.action = "internal:transport/handshake"
      · rw [if_pos h3]
        unfold handleTransportHandshake
        cases hb : ServiceHandshakeRequest.readFrom body with
        | error e =>
          refine .inr ⟨⟨s, e, rfl⟩, fun w hw => ?_⟩
          cases hw with
          | tcp m rest ha' hb' => exact h2 ha'
          | transport m rest ha' hb' => rw [hb] at hb'; cases hb'
          | rest r rest m hd x' resp ha' => exact h1 ha'
          | unknown ha' => exact absurd (by rw [h3]; simp) ha'
        | ok p => exact .inl ⟨_, s, .transport p.1 p.2 h3 hb, rfl, rfl⟩
      · rw [if_neg h3]
        exact .inl ⟨_, s, .unknown (by simp [ha, h1, h2, h3]), rfl, rfl⟩

theorem serves_handle {env : Ext σ H} {ch : Choice} {s : Host σ} {req : OutboundRequest} {body : Bytes} {w : W}
    (h : Serves env ch s.ext req.action body w) :
    ∃ s1 : Host σ, s1.ids = s.ids ∧ handleRequest env ch s req body = sendReply ch s1 req w := by
  unfold handleRequest
  cases h with
  | tcp m rest ha hb =>
    refine ⟨s, rfl, ?_⟩
    rw [if_neg (by rw [ha]; decide +kernel), if_neg (by rw [ha]; decide +kernel), if_pos ha]
    unfold handleTcpHandshake; rw [hb]; rfl
  | transport m rest ha hb =>
    refine ⟨s, rfl, ?_⟩
    rw [if_neg (by rw [ha]; decide +kernel), if_neg (by rw [ha]; decide +kernel),
      if_neg (by rw [ha]; decide +kernel), if_pos ha]
    unfold handleTransportHandshake; rw [hb]; rfl
  | rest r rest m hd x' resp ha hb hm hroute hrun =>
    refine ⟨{ s with ext := x' }, rfl, ?_⟩
    rw [if_neg (by rw [ha]; decide +kernel), if_pos ha]
    unfold handleRest; rw [hb]; dsimp only; rw [hm]; dsimp only
    unfold Registry.handle; rw [hroute]; dsimp only; rw [hrun]; rfl
  | unknown ha =>
    refine ⟨s, rfl, ?_⟩
    simp only [List.mem_cons, List.not_mem_nil, or_false, not_or] at ha
    rw [if_neg ha.1, if_neg ha.2.1, if_neg ha.2.2.1, if_neg ha.2.2.2]; rfl

/-- C51, exactly: a request other than an initialisation is replied to if and only if there is a message
that answers it (`Serves`), that message can be written, and it fits in a frame; otherwise the host raises, and the
peer gets nothing.  It never ends without one of the two. -/
theorem C51_exact (env : Ext σ H) (ch : Choice) (s : Host σ) (hids : s.ids + 3 < 2 ^ 63) {raw : Bytes}
    {req : OutboundRequest} {body : Bytes} (hr : IsRequest raw req body)
    (ha : req.action ≠ "internal:discovery/extensions") :
    ((∃ s' out, onInput env ch s raw = (s', .ok (some out))) ↔
      ∃ reply, Serves env ch s.ext req.action body reply ∧ reply.err = none ∧
        17 + req.ctx.size + reply.out.length < 2 ^ 31) ∧
    ((∃ s' out, onInput env ch s raw = (s', .ok (some out))) ∨ ∃ s' e, onInput env ch s raw = (s', .error e)) := by
  obtain ⟨i1, i2, hctx⟩ := parsesAsRequest_ok hr.1
  rw [onInput_request hr]
  refine ⟨⟨?_, ?_⟩, ?_⟩
  · rintro ⟨s', out, h⟩
    rcases handleRequest_serves env ch { s with ids := s.ids + 2 } req body ha with
      ⟨w, s1, hw, hi, he⟩ | ⟨⟨s'', e, he⟩, _⟩
    · rw [he] at h
      have hi' : s1.ids = s.ids + 2 := hi
      obtain ⟨k1, k2⟩ := (sendReply_iff ch s1 (by omega) hctx i1 i2).1 ⟨s', out, h⟩
      exact ⟨w, hw, k1, k2⟩
    · rw [he] at h; cases h
  · rintro ⟨w, hw, k1, k2⟩
    obtain ⟨s1, hi, he⟩ := serves_handle (s := { s with ids := s.ids + 2 }) (req := req) hw
    have hi' : s1.ids = s.ids + 2 := hi
    rw [he]
    exact (sendReply_iff ch s1 (by omega) hctx i1 i2).2 ⟨k1, k2⟩
  · rcases handleRequest_serves env ch { s with ids := s.ids + 2 } req body ha with
      ⟨w, s1, hw, hi, he⟩ | ⟨h, _⟩
    · rw [he]
      have := (sendReply_state ch s1 req w).2
      rcases hs : sendReply ch s1 req w with ⟨s', x⟩
      rw [hs] at this
      match x, this with
      | .error e, _ => exact .inr ⟨s', e, rfl⟩
      | .ok (some out), _ => exact .inl ⟨s', out, rfl⟩
    · exact .inr h

example := C51_exact sampleExt sampleChoice sampleHost (by decide +kernel) sampleRest_isRequest (by decide +kernel)

/-- The sample's REST request is served (by its handler); with a path that fits no route it is not. -/
example : (∃ w, Serves sampleExt sampleChoice 0 "internal:extensions/restexecuteonextensiontaction" sampleRest.writeTo.out w ∧
      w.err = none) ∧
    ∀ w, ¬ Serves sampleExt sampleChoice 0 "internal:extensions/restexecuteonextensiontaction"
      ({ sampleRest with path := "/nothing" } : ExtensionRestRequest).writeTo.out w := by
  have hok : ∀ p, p = "/hello/Ann" ∨ p = "/nothing" → ExtensionRestRequest.readFrom {}
      ({ sampleRest with path := p } : ExtensionRestRequest).writeTo.out = .ok ({ sampleRest with path := p }, []) := by
    rintro p (rfl | rfl) <;> decide +kernel
  refine ⟨⟨_, .rest sampleRest [] .GET true 1 _ rfl (hok "/hello/Ann" (.inl rfl)) rfl (by decide +kernel) rfl, by decide +kernel⟩,
    fun w hw => ?_⟩
  cases hw with
  | tcp m rest ha hb => exact absurd ha (by decide +kernel)
  | transport m rest ha hb => exact absurd ha (by decide +kernel)
  | rest r rest m hd x' resp ha hb hm hroute hrun =>
    rw [hok "/nothing" (.inr rfl)] at hb
    cases hb
    cases hm
    exact absurd hroute (by
      show ¬ sampleExt.registry.dispatch ("GET" ++ " " ++ "/nothing") = some hd
      rw [show sampleExt.registry.dispatch ("GET" ++ " " ++ "/nothing") = none by decide +kernel]
      simp)
  | unknown ha => exact absurd (by simp) ha

end Verif
