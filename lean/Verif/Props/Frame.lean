import Verif.Props.Order
/-!
# C79: the frames the host sends
-/

namespace Verif
open Py StreamInput StreamOutput Spec

variable {σ H : Type}

/-- What every message built for sending has in its header. -/
structure HostHeader (h : TcpHeader) : Prop where
  marker : h.marker = TcpHeader.ES
  version : h.version = minCompat
  status : h.status ∈ ([0, 1, 4, 5, 8, 9, 12, 13] : List Int)

theorem hostHeader_flags {m : OutboundMessage} (h : HostHeader m.tcp_header)
    (h0 : m.tcp_header.status = 0 ∨ m.tcp_header.status = 1) (hs cp : Bool) :
    HostHeader (m.setFlags hs cp).tcp_header := by
  have k := setFlags_keeps m hs cp
  refine ⟨by rw [k.2.2.1]; exact h.marker, by rw [k.2.1]; exact h.version, ?_⟩
  unfold OutboundMessage.setFlags TcpHeader.setHandshake TcpHeader.setCompress TcpHeader.setStatus
  rcases h0 with h0 | h0 <;> cases hs <;> cases cp <;> simp only [h0, if_true, if_false, Bool.false_eq_true] <;>
    decide +kernel

theorem hostHeader_new {ctx : Option ThreadContext} {st : Int} {rid : Option Int} {msg : Option W} {ids ids' : Nat}
    {m : OutboundMessage} (hst : st = 0 ∨ st = 1)
    (h : OutboundMessage.new ctx minCompat st rid msg ids = (.ok m, ids')) :
    HostHeader m.tcp_header ∧ (m.tcp_header.status = 0 ∨ m.tcp_header.status = 1) := by
  have e := (new_ok h).2
  have hn := headerNew_size minCompat st rid ids
  rw [e]
  refine ⟨⟨hn.2.2.2, hn.2.1, ?_⟩, ?_⟩
  · show (TcpHeader.new minCompat st rid ids).1.status ∈ _
    rw [hn.2.2.1]
    rcases hst with rfl | rfl <;> decide
  · show (TcpHeader.new minCompat st rid ids).1.status = 0 ∨ (TcpHeader.new minCompat st rid ids).1.status = 1
    rw [hn.2.2.1]; exact hst

theorem hostHeader_request {ctx f msg a rid hs cp ids r ids'}
    (h : OutboundRequest.new ctx f msg minCompat a rid hs cp ids = (.ok r, ids')) :
    HostHeader r.tcp_header ∧ r.ctx = ctx.getD {} := by
  obtain ⟨m, hm, hr⟩ := requestNew_ok h
  obtain ⟨h1, h2⟩ := hostHeader_new (.inl rfl) hm
  have er : r.toOutboundMessage = (m.setVariableBytes (OutboundRequest.variableBytes f a).out).setFlags hs cp := by rw [hr]
  have k := setFlags_keeps (m.setVariableBytes (OutboundRequest.variableBytes f a).out) hs cp
  rw [er]
  have k2 := setVariable_keeps m (OutboundRequest.variableBytes f a).out
  refine ⟨hostHeader_flags (m := m.setVariableBytes (OutboundRequest.variableBytes f a).out)
    ⟨by rw [k2.2.2.1]; exact h1.marker, by rw [k2.2.1]; exact h1.version, by rw [k2.2.2.2]; exact h1.status⟩
    (by rw [k2.2.2.2]; exact h2) hs cp, ?_⟩
  rw [k.2.2.2.2.1]
  show m.ctx = _
  rw [(new_ok hm).2]

theorem hostHeader_response {ctx f msg rid hs cp ids r ids'}
    (h : OutboundResponse.new ctx f msg minCompat rid hs cp ids = (.ok r, ids')) :
    HostHeader r.tcp_header ∧ r.ctx = ctx.getD {} := by
  obtain ⟨m, hm, hr⟩ := responseNew_ok h
  obtain ⟨h1, h2⟩ := hostHeader_new (.inr rfl) hm
  have er : r.toOutboundMessage = m.setFlags hs cp := by rw [hr]
  have k := setFlags_keeps m hs cp
  rw [er]
  refine ⟨hostHeader_flags h1 h2 hs cp, ?_⟩
  rw [k.2.2.2.2.1, (new_ok hm).2]

/-- Everything the host sends is a built message with such a header. -/
theorem outputs_built {env : Ext σ H} {ch : Choice} {s : Host σ} (hI : Inv env s) {raw out : Bytes} {s' : Host σ}
    (h : onInput env ch s raw = (s', .ok (some out))) :
    ∃ m : OutboundMessage, Built m ∧ HostHeader m.tcp_header ∧ CtxOK m.ctx ∧ (m.writeTo ch.ho).err = none ∧
      (m.writeTo ch.ho).out = out := by
  rcases onInput_cases env ch s raw with ⟨req, body, hr⟩ | ⟨resp, body, hr⟩ | ⟨n, e, he⟩
  · have hctx := (parsesAsRequest_ok hr.1).2.2
    rw [onInput_request hr] at h
    by_cases ha : req.action = "internal:discovery/extensions"
    · have e : handleRequest env ch { s with ids := s.ids + 2 } req body =
          handleInit env ch { s with ids := s.ids + 2 } req body := by
        unfold handleRequest; rw [if_pos ha]
      rw [e] at h
      cases hb : InitializeExtensionRequest.readFrom body with
      | error e =>
        have : handleInit env ch { s with ids := s.ids + 2 } req body = ({ s with ids := s.ids + 2 }, .error e) := by
          unfold handleInit; rw [hb]
        rw [this] at h; simp at h
      | ok p =>
        obtain ⟨m, rest⟩ := p
        obtain ⟨response, sreq, rreq, i, hi, h1, h2, h3, h4⟩ :=
          handleInit_ok env ch { s with ids := s.ids + 2 } req hb
        rw [h4] at h
        simp only [Prod.mk.injEq] at h
        obtain ⟨w1, w2⟩ := written_ok.1 h.2
        obtain ⟨k1, k2⟩ := hostHeader_request h3
        exact ⟨_, Built.request h3, k1, by rw [k2]; exact hctx, w1, w2⟩
    · obtain ⟨s1, e1, e2, e3, e4, ⟨e, he⟩ | ⟨w, hw⟩⟩ := handleRequest_sends env ch { s with ids := s.ids + 2 } req body ha
      · rw [he] at h; simp at h
      · rw [hw] at h
        unfold sendReply at h
        rcases hrep : replyTo req w s1.ids with ⟨x, ids⟩
        rw [hrep] at h
        cases x with
        | error e => simp at h
        | ok r =>
          simp only [Prod.mk.injEq] at h
          obtain ⟨w1, w2⟩ := written_ok.1 h.2
          unfold replyTo at hrep
          obtain ⟨k1, k2⟩ := hostHeader_response hrep
          exact ⟨_, Built.response hrep, k1, by rw [k2]; exact hctx, w1, w2⟩
  · rw [onInput_response hr] at h
    cases he : resp.tcp_header.isError with
    | true => rw [he] at h; simp at h
    | false =>
      rw [he] at h
      simp only [Bool.false_eq_true, if_false] at h
      unfold handleResponse at h
      cases hg : s.pending.get? resp.tcp_header.request_id with
      | none => simp only [hg] at h; simp at h
      | some p =>
        simp only [hg] at h
        cases p with
        | registerRest n =>
          simp only at h
          unfold handleRegistered at h
          cases hb : AcknowledgedResponse.readFrom body with
          | error e => rw [hb] at h; simp at h
          | ok p =>
            obtain ⟨ack, rest⟩ := p
            rw [hb] at h
            simp only at h
            cases hs : ack.status with
            | false => rw [hs] at h; simp at h
            | true =>
              rw [hs] at h
              simp only [if_true, Prod.mk.injEq] at h
              obtain ⟨ctx, f, i, c1, c2, c3, c4⟩ := hI.reg _ n (Dict.get?_mem hg)
              obtain ⟨w1, w2⟩ := written_ok.1 h.2
              obtain ⟨k1, k2⟩ := hostHeader_request c4
              exact ⟨_, Built.request c4, k1, by rw [k2]; exact c1, w1, w2⟩
        | settings =>
          simp only at h
          unfold handleSettings at h
          cases hsr : Settings.readFrom env.depth s.settings body with
          | mk d x =>
            cases x with
            | error e => simp only [hsr] at h; simp at h
            | ok rest =>
              simp only [hsr, Prod.mk.injEq] at h
              cases hi : s.init with
              | none => simp [hi] at h
              | some r =>
                simp only [hi] at h
                obtain ⟨rq, ids, c1, c2⟩ := hI.init r hi
                obtain ⟨w1, w2⟩ := written_ok.1 h.2
                unfold IsInitResponse replyTo at c2
                obtain ⟨k1, k2⟩ := hostHeader_response c2
                exact ⟨_, Built.response c2, k1, by rw [k2]; exact c1, w1, w2⟩
  · rw [he] at h; simp at h

/-- C79: whatever the host sends, in any reachable state, is one frame laid out as the transport protocol says: `ES`, a
4-byte length, an 8-byte id, the status byte (bits 2 and above 8 never set: no error flag), the four bytes
08 6C 56 5F (the version id 7099999, MIN_COMPAT, with the OpenSearch bit), a 4-byte variable-header length, a serialised thread context,
variable bytes and the body; and if the header strings of the context are ASCII or shorter than 128 encoded
bytes, then both declared lengths are exact. -/
theorem C79_frames (env : Ext σ H) (ch : Choice) (s : Host σ) (hs : Reachable env s) (raw out : Bytes) (s' : Host σ)
    (h : onInput env ch s raw = (s', .ok (some out))) :
    ∃ (size id varsize context vars body : Bytes) (status : UInt8) (ctx : ThreadContext),
      out = [0x45, 0x53] ++ size ++ id ++ [status] ++ [0x08, 0x6C, 0x56, 0x5F] ++ varsize ++ context ++ vars ++ body ∧
      size.length = 4 ∧ id.length = 8 ∧ varsize.length = 4 ∧ status &&& 0xF2 = 0 ∧
      ThreadContext.readFrom context = .ok (ctx, []) ∧
      (CtxSized ctx → out.length = beValue size + 6 ∧ beValue varsize = context.length + vars.length) := by
  obtain ⟨m, hb, hh, hc, w1, rfl⟩ := outputs_built hs.inv h
  have hok : HeaderOK m.tcp_header (Version.new Version.MIN_COMPAT) := by
    refine (C19_misfit_raises _ _ ?_ hh.version).1 (message_header_ok w1)
    rw [hh.marker]; rfl
  have hp := (writeTo_parts ch.ho m (rt_header hok).1).2
  obtain ⟨sz, id, st, ver, vh, l1, l2, l3, l4, ⟨l5, l6⟩, l7, _⟩ := C19_layout _ _ hok
  have hver : ver = [0x08, 0x6C, 0x56, 0x5F] := by
    have e := beDigits_natOfBE ver
    have ev : (Version.new Version.MIN_COMPAT).id = ((141317727 : Nat) : Int) := by decide +kernel
    rw [beValue_eq, ev, Int.natCast_inj] at l6
    rw [l5, l6] at e
    rw [← e]; decide +kernel
  have hst : ∃ b : UInt8, st = [b] ∧ b &&& 0xF2 = 0 := by
    obtain ⟨g1, _, _, g4⟩ := l4
    match st, g1 with
    | [b], _ =>
      refine ⟨b, rfl, ?_⟩
      have hb' : (b.toNat : Int) = m.tcp_header.status % 256 := by simpa [beValue] using g4
      have hx := hh.status
      generalize m.tcp_header.status = x at hb' hx
      simp only [List.mem_cons, List.not_mem_nil, or_false] at hx
      rcases hx with rfl | rfl | rfl | rfl | rfl | rfl | rfl | rfl <;>
        (rw [show b = UInt8.ofNat b.toNat by simp]; generalize b.toNat = n at *
         norm_num at hb'
         first
          | (have : n = 0 := by omega); subst this; decide
          | (have : n = 1 := by omega); subst this; decide
          | (have : n = 4 := by omega); subst this; decide
          | (have : n = 5 := by omega); subst this; decide
          | (have : n = 8 := by omega); subst this; decide
          | (have : n = 9 := by omega); subst this; decide
          | (have : n = 12 := by omega); subst this; decide
          | (have : n = 13 := by omega); subst this; decide)
  obtain ⟨b, rfl, hb2⟩ := hst
  have hrt := (rt_ctx ch.ho hc).2 []
  rw [List.append_nil] at hrt
  refine ⟨sz, id, vh, _, m.variable_bytes.getD [], m.message_bytes.getD [], b, _, ?_, l2.1, l3.1, l7.1, hb2, hrt, ?_⟩
  · rw [hp, l1, hver, hh.marker]
    simp [TcpHeader.ES]
  · intro hsz
    have hsz' : CtxSized m.ctx := by
      refine ⟨hsz.1, fun kv hkv => ?_⟩
      obtain ⟨a1, a2⟩ := hsz.2 (kv.1, ch.ho.order kv.2) (List.mem_map.2 ⟨kv, hkv, rfl⟩)
      exact ⟨a1, fun t ht => a2 t ((ch.ho.perm kv.2).mem_iff.2 ht)⟩
    have hx := (C22_partial ch.ho m _ hb hok hsz').2.1
    have hl := ctx_writeTo_length ch.ho hsz'
    have hbal := C21_invariant m hb
    have k1 := l2.2.2.2
    have k2 := l7.2.2.2
    have h1 := hok.size2
    have h2 := hok.var2
    simp only [optLen] at hbal
    rw [Int.emod_eq_of_lt (by omega) (by omega)] at k1 k2
    refine ⟨by omega, ?_⟩
    rw [hl]; omega

/-- C79: the sample registration goes out, and its context is sized. -/
example : ∃ out, onInput sampleExt sampleChoice sampleHost sampleInitFrame = (sampleInited, .ok (some out)) ∧
    out.take 2 = [0x45, 0x53] ∧ CtxSized sampleCtx := by
  obtain ⟨out, ho⟩ := some_of_isSome
    (show ((onInput sampleExt sampleChoice sampleHost sampleInitFrame).2.toOption.join).isSome by decide +kernel)
  have hx : onInput sampleExt sampleChoice sampleHost sampleInitFrame = (sampleInited, .ok (some out)) := by
    rw [← ho]; unfold sampleInited; rw [Prod.mk.eta]
  refine ⟨out, hx, ?_, ?_⟩
  · obtain ⟨_, _, _, _, _, _, _, _, e, _⟩ := C79_frames _ _ _ sampleHost_reachable _ _ _ hx
    rw [e]; simp
  · constructor
    · intro kv hkv
      simp only [sampleCtx, List.mem_singleton] at hkv
      subst hkv
      exact ⟨.inr (by decide +kernel), .inr (by decide +kernel)⟩
    · intro kv hkv; cases hkv

end Verif
