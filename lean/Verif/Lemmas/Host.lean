import Verif.Lemmas.Ensures
import Verif.Lemmas.Rest
import Verif.Props.Message
import Verif.Spec.Host
/-! How `onInput` proceeds, and what the replies it builds look like on the wire. -/

namespace Verif
open Py StreamInput StreamOutput

variable {σ H : Type}

theorem ens_header : TcpHeader.readFrom.Ensures fun h =>
    -(2 ^ 63) ≤ h.request_id ∧ h.request_id < 2 ^ 63 ∧ ∃ v, h.version = .obj v := by
  refine Reader.Ensures.bind' fun _ => Reader.Ensures.bind' fun _ => Reader.Ensures.bind
    (P := fun i => -(2 ^ 63) ≤ i ∧ i < 2 ^ 63) ?_ fun i hi =>
    Reader.Ensures.bind' fun _ => Reader.Ensures.bind' fun _ => Reader.Ensures.bind' fun _ =>
    Reader.Ensures.pure ⟨hi.1, hi.2, _, rfl⟩
  intro bs a rest h
  have : (Except.ok (fromBytesSigned (bs.take 8), bs.drop 8) : Except Err (Int × Bytes)) = .ok (a, rest) := h
  cases this
  have hr := fromBytesSigned_range (bs.take 8)
  have hl : (bs.take 8).length ≤ 8 := by simp
  have hp : (256 : Int) ^ (bs.take 8).length ≤ 256 ^ 8 := by
    exact_mod_cast Nat.pow_le_pow_right (by decide) hl
  constructor <;> omega

/-- A blank request, up to the id it drew. -/
theorem blankRequest_new (ids : Nat) : ∃ blank : OutboundRequest,
    OutboundRequest.new none [] none .none "" none false false ids = (.ok blank, ids + 1) ∧
    blank.ctx = {} ∧ blank.message_bytes = none ∧ blank.variable_bytes = some (OutboundRequest.variableBytes [] "").out ∧
    blank.features = [] ∧ blank.action = "" := ⟨_, rfl, rfl, rfl, rfl, rfl, rfl⟩

theorem blankResponse_new (ids : Nat) : ∃ blank : OutboundResponse,
    OutboundResponse.new none [] none .none none false false ids = (.ok blank, ids + 1) ∧
    blank.ctx = {} ∧ blank.message_bytes = none ∧ blank.variable_bytes = none ∧
    blank.features = [] := ⟨_, rfl, rfl, rfl, rfl, rfl⟩

/-- Reading a message overwrites the header and the context. -/
theorem message_readFrom_congr (a b : OutboundMessage) (h : Option TcpHeader)
    (hv : a.variable_bytes = b.variable_bytes) (hm : a.message_bytes = b.message_bytes) :
    a.readFrom h = b.readFrom h := by
  obtain ⟨ah, ac, av, am⟩ := a
  obtain ⟨bh, bc, bv, bm⟩ := b
  simp only at hv hm
  subst hv hm
  rfl

theorem request_readFrom_congr (a b : OutboundRequest) (h : Option TcpHeader)
    (hv : a.variable_bytes = b.variable_bytes) (hm : a.message_bytes = b.message_bytes)
    (hf : a.features = b.features) (ha : a.action = b.action) : a.readFrom h = b.readFrom h := by
  unfold OutboundRequest.readFrom
  rw [message_readFrom_congr _ _ h hv hm, hf, ha]

theorem response_readFrom_congr (a b : OutboundResponse) (h : Option TcpHeader)
    (hv : a.variable_bytes = b.variable_bytes) (hm : a.message_bytes = b.message_bytes)
    (hf : a.features = b.features) : a.readFrom h = b.readFrom h := by
  unfold OutboundResponse.readFrom
  rw [message_readFrom_congr _ _ h hv hm, hf]

/-- Reading everything = reading the header, then the rest with the header given. -/
theorem request_readFrom_none (m : OutboundRequest) :
    m.readFrom none = (TcpHeader.readFrom >>= fun h => m.readFrom (some h)) := by
  have e : m.toOutboundMessage.readFrom none =
      (TcpHeader.readFrom >>= fun h => m.toOutboundMessage.readFrom (some h)) := by
    unfold OutboundMessage.readFrom; simp only [pure_bind]
  unfold OutboundRequest.readFrom
  rw [e, bind_assoc]

theorem response_readFrom_none (m : OutboundResponse) :
    m.readFrom none = (TcpHeader.readFrom >>= fun h => m.readFrom (some h)) := by
  have e : m.toOutboundMessage.readFrom none =
      (TcpHeader.readFrom >>= fun h => m.toOutboundMessage.readFrom (some h)) := by
    unfold OutboundMessage.readFrom; simp only [pure_bind]
  unfold OutboundResponse.readFrom
  rw [e, bind_assoc]

theorem message_readFrom_ok {m m' : OutboundMessage} {h : TcpHeader} {bs rest : Bytes}
    (hr : m.readFrom (some h) bs = .ok (m', rest)) : m'.tcp_header = h ∧ CtxOK m'.ctx := by
  unfold OutboundMessage.readFrom at hr
  simp only [pure_bind] at hr
  obtain ⟨c, mid, h1, h2⟩ := Reader.bind_eq_ok.1 hr
  have hc := ens_ctx _ _ _ h1
  split at h2
  · obtain ⟨vb, mid', h3, h4⟩ := Reader.bind_eq_ok.1 h2
    have : (Except.ok (({ m with tcp_header := h, ctx := c, variable_bytes := some vb } : OutboundMessage), mid') :
      Except Err (OutboundMessage × Bytes)) = .ok (m', rest) := h4
    cases this; exact ⟨rfl, hc⟩
  · have : (Except.ok (({ m with tcp_header := h, ctx := c } : OutboundMessage), mid) :
      Except Err (OutboundMessage × Bytes)) = .ok (m', rest) := h2
    cases this; exact ⟨rfl, hc⟩

theorem request_readFrom_ok {m m' : OutboundRequest} {h : TcpHeader} {bs rest : Bytes}
    (hr : m.readFrom (some h) bs = .ok (m', rest)) : m'.tcp_header = h ∧ CtxOK m'.ctx := by
  unfold OutboundRequest.readFrom at hr
  obtain ⟨c, mid, h1, h2⟩ := Reader.bind_eq_ok.1 hr
  have hc := message_readFrom_ok h1
  split at h2
  · obtain ⟨p, mid', h3, h4⟩ := Reader.bind_eq_ok.1 h2
    have : (Except.ok (({ c with features := p.1, action := p.2 } : OutboundRequest), mid') :
      Except Err (OutboundRequest × Bytes)) = .ok (m', rest) := h4
    cases this; exact hc
  · have : (Except.ok (({ c with features := m.features, action := m.action } : OutboundRequest), mid) :
      Except Err (OutboundRequest × Bytes)) = .ok (m', rest) := h2
    cases this; exact hc

theorem response_readFrom_ok {m m' : OutboundResponse} {h : TcpHeader} {bs rest : Bytes}
    (hr : m.readFrom (some h) bs = .ok (m', rest)) : m'.tcp_header = h ∧ CtxOK m'.ctx := by
  unfold OutboundResponse.readFrom at hr
  obtain ⟨c, mid, h1, h2⟩ := Reader.bind_eq_ok.1 hr
  have hc := message_readFrom_ok h1
  have : (Except.ok (({ c with features := m.features } : OutboundResponse), mid) :
      Except Err (OutboundResponse × Bytes)) = .ok (m', rest) := h2
  cases this; exact hc

/-- A parsed frame, in the two steps the host takes. -/
theorem parsesAsRequest_iff {raw : Bytes} {req : OutboundRequest} {body : Bytes} (ids : Nat) :
    ParsesAsRequest raw req body ↔ ∃ blank h rest,
      OutboundRequest.new none [] none .none "" none false false ids = (.ok blank, ids + 1) ∧
      TcpHeader.readFrom raw = .ok (h, rest) ∧ blank.readFrom (some h) rest = .ok (req, body) := by
  obtain ⟨blank, hb, _, b2, b3, b4, b5⟩ := blankRequest_new ids
  constructor
  · rintro ⟨ids1, ids2, bl, h1, h2⟩
    obtain ⟨bl', hb', _, c2, c3, c4, c5⟩ := blankRequest_new ids1
    rw [h1] at hb'
    simp only [Prod.mk.injEq, Except.ok.injEq] at hb'
    obtain ⟨rfl, -⟩ := hb'
    rw [request_readFrom_none] at h2
    obtain ⟨h, rest, h3, h4⟩ := Reader.bind_eq_ok.1 h2
    refine ⟨blank, h, rest, hb, h3, ?_⟩
    rw [← h4, request_readFrom_congr blank bl (some h) (by rw [b3, c3]) (by rw [b2, c2]) (by rw [b4, c4]) (by rw [b5, c5])]
  · rintro ⟨bl, h, rest, h1, h2, h3⟩
    refine ⟨ids, ids + 1, bl, h1, ?_⟩
    rw [request_readFrom_none, Reader.bind_ok h2, h3]

theorem parsesAsResponse_iff {raw : Bytes} {resp : OutboundResponse} {body : Bytes} (ids : Nat) :
    ParsesAsResponse raw resp body ↔ ∃ blank h rest,
      OutboundResponse.new none [] none .none none false false ids = (.ok blank, ids + 1) ∧
      TcpHeader.readFrom raw = .ok (h, rest) ∧ blank.readFrom (some h) rest = .ok (resp, body) := by
  obtain ⟨blank, hb, _, b2, b3, b4⟩ := blankResponse_new ids
  constructor
  · rintro ⟨ids1, ids2, bl, h1, h2⟩
    obtain ⟨bl', hb', _, c2, c3, c4⟩ := blankResponse_new ids1
    rw [h1] at hb'
    simp only [Prod.mk.injEq, Except.ok.injEq] at hb'
    obtain ⟨rfl, -⟩ := hb'
    rw [response_readFrom_none] at h2
    obtain ⟨h, rest, h3, h4⟩ := Reader.bind_eq_ok.1 h2
    refine ⟨blank, h, rest, hb, h3, ?_⟩
    rw [← h4, response_readFrom_congr blank bl (some h) (by rw [b3, c3]) (by rw [b2, c2]) (by rw [b4, c4])]
  · rintro ⟨bl, h, rest, h1, h2, h3⟩
    refine ⟨ids, ids + 1, bl, h1, ?_⟩
    rw [response_readFrom_none, Reader.bind_ok h2, h3]

/-- What is known of a decoded request: its id is a 64-bit number and its context can be sent. -/
theorem parsesAsRequest_ok {raw : Bytes} {req : OutboundRequest} {body : Bytes}
    (h : ParsesAsRequest raw req body) :
    -(2 ^ 63) ≤ req.tcp_header.request_id ∧ req.tcp_header.request_id < 2 ^ 63 ∧ CtxOK req.ctx := by
  obtain ⟨bl, hd, rest, _, h2, h3⟩ := (parsesAsRequest_iff 0).1 h
  obtain ⟨e, hc⟩ := request_readFrom_ok h3
  have := ens_header _ _ _ h2
  rw [e]; exact ⟨this.1, this.2.1, hc⟩

/-- The host's handling of a request frame. -/
theorem onInput_request {env : Ext σ H} {ch : Choice} {s : Host σ} {raw : Bytes} {req : OutboundRequest}
    {body : Bytes} (h : IsRequest raw req body) :
    onInput env ch s raw = handleRequest env ch { s with ids := s.ids + 2 } req body := by
  obtain ⟨bl, hd, rest, h1, h2, h3⟩ := (parsesAsRequest_iff (s.ids + 1)).1 h.1
  obtain ⟨e, _⟩ := request_readFrom_ok h3
  have hq := h.2
  rw [e] at hq
  have e0 : (TcpHeader.new (.int Version.CURRENT) 0 none s.ids).2 = s.ids + 1 := rfl
  unfold onInput
  simp only [e0, h2, hq, if_true, h1, h3]

/-- The host's handling of a response frame. -/
theorem onInput_response {env : Ext σ H} {ch : Choice} {s : Host σ} {raw : Bytes} {resp : OutboundResponse}
    {body : Bytes} (h : IsResponse raw resp body) :
    onInput env ch s raw = if resp.tcp_header.isError then ({ s with ids := s.ids + 2 }, .ok none)
      else handleResponse env ch { s with ids := s.ids + 2 } resp body := by
  obtain ⟨bl, hd, rest, h1, h2, h3⟩ := (parsesAsResponse_iff (s.ids + 1)).1 h.1
  obtain ⟨e, _⟩ := response_readFrom_ok h3
  have hq := h.2
  rw [e] at hq
  have hq' : hd.isRequest = false := by unfold TcpHeader.isRequest; rw [hq]; rfl
  have e0 : (TcpHeader.new (.int Version.CURRENT) 0 none s.ids).2 = s.ids + 1 := rfl
  unfold onInput
  simp only [e0, h2, hq', h1, h3, Bool.false_eq_true, if_false]

/-- Every input is a request, a response, or garbage; for garbage the host raises and only the id
counter has moved. -/
theorem onInput_cases (env : Ext σ H) (ch : Choice) (s : Host σ) (raw : Bytes) :
    (∃ req body, IsRequest raw req body) ∨ (∃ resp body, IsResponse raw resp body) ∨
    ∃ n e, onInput env ch s raw = ({ s with ids := s.ids + n }, .error e) := by
  have e0 : (TcpHeader.new (.int Version.CURRENT) 0 none s.ids).2 = s.ids + 1 := rfl
  cases hh : TcpHeader.readFrom raw with
  | error e =>
    refine .inr (.inr ⟨1, e, ?_⟩)
    unfold onInput; simp only [hh, e0]
  | ok p =>
    obtain ⟨h, input⟩ := p
    cases hq : h.isRequest with
    | true =>
      obtain ⟨bl, hb, _⟩ := blankRequest_new (s.ids + 1)
      cases hr : bl.readFrom (some h) input with
      | error e =>
        refine .inr (.inr ⟨2, e, ?_⟩)
        unfold onInput; simp only [hh, e0, hq, if_true, hb, hr]
      | ok p =>
        obtain ⟨req, body⟩ := p
        have hp := (parsesAsRequest_iff (s.ids + 1)).2 ⟨bl, h, input, hb, hh, hr⟩
        exact .inl ⟨req, body, hp, by rw [(request_readFrom_ok hr).1]; exact hq⟩
    | false =>
      obtain ⟨bl, hb, _⟩ := blankResponse_new (s.ids + 1)
      cases hr : bl.readFrom (some h) input with
      | error e =>
        refine .inr (.inr ⟨2, e, ?_⟩)
        unfold onInput; simp only [hh, e0, hq, Bool.false_eq_true, if_false, hb, hr]
      | ok p =>
        obtain ⟨resp, body⟩ := p
        have hp := (parsesAsResponse_iff (s.ids + 1)).2 ⟨bl, h, input, hb, hh, hr⟩
        refine .inr (.inl ⟨resp, body, hp, ?_⟩)
        rw [(response_readFrom_ok hr).1]
        unfold TcpHeader.isRequest at hq
        revert hq; cases h.isResponse <;> simp

theorem written_ok {w : W} {out : Bytes} : written w = .ok (some out) ↔ w.err = none ∧ w.out = out := by
  unfold written
  cases h : w.err with
  | some e => simp
  | none => simp

theorem toBytesSigned_err {n : Nat} {i : Int} (h : (toBytesSigned n i).err = none) :
    -(256 ^ n : Int) ≤ 2 * i ∧ 2 * i < 256 ^ n := by
  unfold toBytesSigned at h
  split at h
  · assumption
  · simp at h

theorem header_fits_of_ok {h : TcpHeader} (he : h.writeTo.err = none) :
    h.size < 2 ^ 31 ∧ -(2 ^ 63) ≤ h.request_id ∧ h.request_id < 2 ^ 63 := by
  unfold TcpHeader.writeTo at he
  simp only [W.err_append] at he
  have h1 := toBytesSigned_err he.2.1
  have h2 := toBytesSigned_err he.2.2.1
  refine ⟨by omega, by omega, by omega⟩

theorem message_header_ok {ho : HashOrder} {m : OutboundMessage} (h : (m.writeTo ho).err = none) :
    m.tcp_header.writeTo.err = none := by
  unfold OutboundMessage.writeTo at h
  simp only [W.err_append] at h
  exact h.1

theorem minCompat_range : 0 ≤ (Version.new Version.MIN_COMPAT).id ∧ (Version.new Version.MIN_COMPAT).id < 2 ^ 32 := by
  decide +kernel

theorem responseNew_id {ctx f msg ver rid hs cp ids r ids'}
    (h : OutboundResponse.new ctx f msg ver rid hs cp ids = (.ok r, ids')) :
    r.tcp_header.request_id = chosenId rid ids := by
  obtain ⟨m, hm, e⟩ := responseNew_ok h
  have er : r.toOutboundMessage = m.setFlags hs cp := by rw [e]
  rw [er, (setFlags_keeps m hs cp).1, (new_ok hm).2]
  exact headerNew_id _ _ _ _

theorem requestNew_id {ctx f msg ver a rid hs cp ids r ids'}
    (h : OutboundRequest.new ctx f msg ver a rid hs cp ids = (.ok r, ids')) :
    r.tcp_header.request_id = chosenId rid ids := by
  obtain ⟨m, hm, e⟩ := requestNew_ok h
  have er : r.toOutboundMessage = (m.setVariableBytes (OutboundRequest.variableBytes f a).out).setFlags hs cp := by
    rw [e]
  rw [er, (setFlags_keeps _ hs cp).1, (setVariable_keeps m _).1, (new_ok hm).2]
  exact headerNew_id _ _ _ _

/-- What a built response looks like on the wire, if it can be written at all. -/
theorem response_on_wire {ctx : ThreadContext} {f : List String} {w : W} {rid : Option Int} {hs cp : Bool}
    {ids ids' : Nat} {r : OutboundResponse} (ho : HashOrder)
    (h : OutboundResponse.new (some ctx) f (some w) minCompat rid hs cp ids = (.ok r, ids'))
    (hc : CtxOK ctx) (hw : (r.writeTo ho).err = none) :
    w.err = none ∧ ReplyIs (r.writeTo ho).out (chosenId rid ids) hs cp ctx w.out := by
  have hfit := header_fits_of_ok (message_header_ok hw)
  have hid := responseNew_id h
  rw [hid] at hfit
  obtain ⟨m, hm, _⟩ := responseNew_ok h
  refine ⟨(new_ok hm).1 w rfl, ?_⟩
  obtain ⟨blank, hb, _⟩ := blankResponse_new 0
  obtain ⟨h1, r', h5, h6, h7, h8, h9, hall⟩ := C24_roundtrip ho h (by exact hc)
    minCompat_range.1 minCompat_range.2 hfit.2.1 hfit.2.2 hfit.1 blank
  obtain ⟨rest1, h2, h3, h4⟩ := hall []
  simp only [List.append_nil, Option.map_some, Option.getD_some] at h2 h8 h9
  have hf := h8
  unfold TcpHeader.flags at hf
  simp only [Spec.Flags.mk.injEq] at hf
  exact ⟨r', ⟨⟨0, 1, blank, hb, h2⟩, hf.1⟩, hf.2.1, by rw [h6], hf.2.2.2, hf.2.2.1, h9⟩

/-- The counter after a construction (specification): a missing id, or 0, uses one up. -/
def idsAfter (rid : Option Int) (ids : Nat) : Nat :=
  match rid with
  | some i => if i = 0 then ids + 1 else ids
  | none => ids + 1

theorem headerNew_ids (ver : VerField) (st : Int) (rid : Option Int) (ids : Nat) :
    (TcpHeader.new ver st rid ids).2 = idsAfter rid ids := by
  unfold TcpHeader.new idsAfter
  cases rid with
  | none => rfl
  | some i => dsimp only; split <;> rfl

theorem messageNew_ids (ctx ver st rid msg ids) :
    (OutboundMessage.new ctx ver st rid msg ids).2 = idsAfter rid ids := by
  unfold OutboundMessage.new
  have := headerNew_ids ver st rid ids
  cases msg with
  | none => exact this
  | some w =>
    simp only
    cases hw : w.err with
    | none => exact this
    | some e => exact this

theorem requestNew_ids (ctx f msg ver a rid hs cp ids) :
    (OutboundRequest.new ctx f msg ver a rid hs cp ids).2 = idsAfter rid ids := by
  have := messageNew_ids ctx ver 0 rid msg ids
  unfold OutboundRequest.new
  rcases hn : OutboundMessage.new ctx ver 0 rid msg ids with ⟨x, ids'⟩
  rw [hn] at this
  cases x <;> exact this

theorem responseNew_ids (ctx f msg ver rid hs cp ids) :
    (OutboundResponse.new ctx f msg ver rid hs cp ids).2 = idsAfter rid ids := by
  have := messageNew_ids ctx ver STATUS_REQRES rid msg ids
  unfold OutboundResponse.new
  rcases hn : OutboundMessage.new ctx ver STATUS_REQRES rid msg ids with ⟨x, ids'⟩
  rw [hn] at this
  cases x <;> exact this

/-- A reply that fits is built and written; `sendReply` changes nothing but, for the id 0, the
counter. -/
theorem sendReply_fits' (ch : Choice) (s : Host σ) {req : OutboundRequest} {w : W}
    (hc : CtxOK req.ctx) (hid1 : -(2 ^ 63) ≤ chosenId (some req.tcp_header.request_id) s.ids)
    (hid2 : chosenId (some req.tcp_header.request_id) s.ids < 2 ^ 63)
    (hw : w.err = none) (hfit : 17 + req.ctx.size + w.out.length < 2 ^ 31) :
    ∃ out, sendReply ch s req w =
        ({ s with ids := idsAfter (some req.tcp_header.request_id) s.ids }, .ok (some out)) ∧
      ReplyIs out (chosenId (some req.tcp_header.request_id) s.ids) req.tcp_header.isHandshake
        req.tcp_header.isCompress req.ctx w.out := by
  have hnew : ∃ r, replyTo req w s.ids = (.ok r, idsAfter (some req.tcp_header.request_id) s.ids) := by
    have := responseNew_ids (some req.ctx) req.features (some w) minCompat (some req.tcp_header.request_id)
      req.tcp_header.isHandshake req.tcp_header.isCompress s.ids
    unfold replyTo
    unfold OutboundResponse.new OutboundMessage.new at this ⊢
    simp only [hw] at this ⊢
    rw [← this]
    exact ⟨_, rfl⟩
  obtain ⟨r, hr⟩ := hnew
  have hr' := hr
  unfold replyTo minCompat at hr'
  have hb := C21_invariant _ (Built.response hr')
  have hctx : r.ctx = req.ctx ∧ r.variable_bytes = none ∧ r.message_bytes = some w.out := by
    obtain ⟨m, hm, e⟩ := responseNew_ok hr'
    have k := setFlags_keeps m req.tcp_header.isHandshake req.tcp_header.isCompress
    have hmm := (new_ok hm).2
    have er : r.toOutboundMessage = m.setFlags req.tcp_header.isHandshake req.tcp_header.isCompress := by rw [e]
    refine ⟨?_, ?_, ?_⟩
    · rw [er, k.2.2.2.2.1, hmm]; rfl
    · rw [er, k.2.2.2.2.2.1, hmm]
    · rw [er, k.2.2.2.2.2.2, hmm]; rfl
  have hsz : r.tcp_header.size < 2 ^ 31 := by
    have := hb.1
    rw [hctx.1, hctx.2.1, hctx.2.2] at this
    simp only [optLen, Option.getD_none, Option.getD_some, List.length_nil] at this
    omega
  have hf := response_facts hr' minCompat_range.1 minCompat_range.2 hid1 hid2 hsz
  have hwr := (writeTo_parts ch.ho r.toOutboundMessage (rt_header hf.2.1).1).1
  have hrw := response_on_wire ch.ho hr' hc hwr
  refine ⟨(r.writeTo ch.ho).out, ?_, hrw.2⟩
  unfold sendReply
  rw [hr]
  simp only
  rw [(written_ok (w := r.writeTo ch.ho)).2 ⟨hwr, rfl⟩]

/-- The same for an id other than 0. -/
theorem sendReply_fits (ch : Choice) (s : Host σ) {req : OutboundRequest} {w : W}
    (hc : CtxOK req.ctx) (hid1 : -(2 ^ 63) ≤ req.tcp_header.request_id)
    (hid2 : req.tcp_header.request_id < 2 ^ 63) (hid : req.tcp_header.request_id ≠ 0)
    (hw : w.err = none) (hfit : 17 + req.ctx.size + w.out.length < 2 ^ 31) :
    ∃ out, sendReply ch s req w = (s, .ok (some out)) ∧
      Answers out req w.out := by
  have hch : chosenId (some req.tcp_header.request_id) s.ids = req.tcp_header.request_id := by
    unfold chosenId; simp [hid]
  have hia : idsAfter (some req.tcp_header.request_id) s.ids = s.ids := by
    unfold idsAfter; simp [hid]
  have := sendReply_fits' ch s hc (by rw [hch]; exact hid1) (by rw [hch]; exact hid2) hw hfit
  rw [hch, hia] at this
  exact this

/-- Whenever `sendReply` sends, this is what it sends. -/
theorem sendReply_sent {ch : Choice} {s s' : Host σ} {req : OutboundRequest} {w : W} {out : Bytes}
    (hc : CtxOK req.ctx) (h : sendReply ch s req w = (s', .ok (some out))) :
    w.err = none ∧ ReplyIs out (chosenId (some req.tcp_header.request_id) s.ids)
      req.tcp_header.isHandshake req.tcp_header.isCompress req.ctx w.out := by
  unfold sendReply at h
  rcases hr : replyTo req w s.ids with ⟨x, ids⟩
  rw [hr] at h
  cases x with
  | error e => simp at h
  | ok r =>
    simp only [Prod.mk.injEq] at h
    obtain ⟨h1, h2⟩ := h
    obtain ⟨h3, h4⟩ := written_ok.1 h2
    unfold replyTo at hr
    have := response_on_wire ch.ho hr hc h3
    rw [← h4]
    exact this

/-- `sendReply` changes nothing but the counter, whether or not it raises, and never stays silent. -/
theorem sendReply_state (ch : Choice) (s : Host σ) (req : OutboundRequest) (w : W) :
    (sendReply ch s req w).1 = { s with ids := idsAfter (some req.tcp_header.request_id) s.ids } ∧
    (sendReply ch s req w).2 ≠ .ok none := by
  have := responseNew_ids (some req.ctx) req.features (some w) minCompat (some req.tcp_header.request_id)
    req.tcp_header.isHandshake req.tcp_header.isCompress s.ids
  unfold sendReply
  rcases hr : replyTo req w s.ids with ⟨x, ids⟩
  unfold replyTo at hr
  rw [hr] at this
  replace this : ids = _ := this
  subst this
  cases x with
  | error e => exact ⟨rfl, by simp⟩
  | ok r =>
    refine ⟨rfl, ?_⟩
    simp only
    unfold written
    cases (r.writeTo ch.ho).err <;> simp

theorem SameContext.trans {a b c : ThreadContext} (h1 : SameContext a b) (h2 : SameContext b c) :
    SameContext a c := by
  refine ⟨h1.1.trans h2.1, ?_⟩
  have h1' := h1.2
  have h2' := h2.2
  generalize a.response_headers = x at h1'
  generalize b.response_headers = y at h1' h2'
  generalize c.response_headers = z at h2'
  induction h1' generalizing z with
  | nil => cases h2'; exact List.Forall₂.nil
  | cons h _ ih =>
    cases h2' with
    | cons h' t => exact List.Forall₂.cons ⟨h.1.trans h'.1, h.2.trans h'.2⟩ (ih _ t)

theorem SameContext.size {a b : ThreadContext} (h : SameContext a b) : a.size = b.size := by
  unfold ThreadContext.size
  rw [h.1, stringCollDictSize_eq, stringCollDictSize_eq, h.2.length_eq]
  have : (a.response_headers.map fun kv => stringSize kv.1 + (vIntSize kv.2.length + (kv.2.map stringSize).sum)) =
      (b.response_headers.map fun kv => stringSize kv.1 + (vIntSize kv.2.length + (kv.2.map stringSize).sum)) := by
    have h2 := h.2
    generalize a.response_headers = x at h2
    generalize b.response_headers = y at h2
    induction h2 with
    | nil => rfl
    | cons h _ ih =>
      rw [List.map_cons, List.map_cons, ih, h.1, h.2.length_eq, sum_perm (h.2.map stringSize)]
  rw [this]

theorem ReplyIs.context {out : Bytes} {id : Int} {hs cp : Bool} {c c' : ThreadContext} {body : Bytes}
    (h : ReplyIs out id hs cp c body) (hc : SameContext c c') : ReplyIs out id hs cp c' body := by
  obtain ⟨r, h1, h2, h3, h4, h5, h6⟩ := h
  exact ⟨r, h1, h2, h3, h4, h5, h6.trans hc⟩

/-- A request frame built and serialised by a peer, as the host sees it: the same request, whatever
follows it. -/
theorem request_on_wire_any (ho : HashOrder) {ctx : ThreadContext} {f : List String} {w : W}
    {v : Version} {a : String} {rid : Option Int} {hs cp : Bool} {ids ids' : Nat} {r : OutboundRequest}
    (h : OutboundRequest.new (some ctx) f (some w) (.obj v) a rid hs cp ids = (.ok r, ids'))
    (hctx : CtxOK ctx) (hf : StrsOK f) (ha : StrOK a)
    (hv1 : 0 ≤ v.id) (hv2 : v.id < 2 ^ 32) (hid1 : -(2 ^ 63) ≤ chosenId rid ids)
    (hid2 : chosenId rid ids < 2 ^ 63) (hsz : r.tcp_header.size < 2 ^ 31) :
    ∃ req, (∀ rest, IsRequest ((r.writeTo ho).out ++ rest) req (w.out ++ rest)) ∧
      req.tcp_header.request_id = chosenId rid ids ∧ req.tcp_header.isHandshake = hs ∧
      req.tcp_header.isCompress = cp ∧ SameContext req.ctx ctx ∧ req.features = f ∧ req.action = a ∧
      req.tcp_header.isError = false := by
  obtain ⟨blank, hb, _⟩ := blankRequest_new 0
  obtain ⟨h1, r', h5, h6, h7, h8, h9, h10, h11, hall⟩ := C23_roundtrip ho h (by exact hctx)
    hf ha hv1 hv2 hid1 hid2 hsz blank
  simp only [Option.map_some, Option.getD_some] at hall h9
  have hfl := h8
  unfold TcpHeader.flags at hfl
  simp only [Spec.Flags.mk.injEq] at hfl
  refine ⟨r', fun rest => ?_, h6, hfl.2.2.2, hfl.2.2.1, h9, h10, h11, hfl.2.1⟩
  obtain ⟨rest1, h2, _⟩ := hall rest
  exact ⟨⟨0, 1, blank, hb, h2⟩, by unfold TcpHeader.isRequest; rw [hfl.1]; rfl⟩

theorem request_on_wire (ho : HashOrder) {ctx : ThreadContext} {f : List String} {w : W}
    {v : Version} {a : String} {rid : Option Int} {hs cp : Bool} {ids ids' : Nat} {r : OutboundRequest}
    (h : OutboundRequest.new (some ctx) f (some w) (.obj v) a rid hs cp ids = (.ok r, ids'))
    (hctx : CtxOK ctx) (hf : StrsOK f) (ha : StrOK a)
    (hv1 : 0 ≤ v.id) (hv2 : v.id < 2 ^ 32) (hid1 : -(2 ^ 63) ≤ chosenId rid ids)
    (hid2 : chosenId rid ids < 2 ^ 63) (hsz : r.tcp_header.size < 2 ^ 31) (rest : Bytes) :
    ∃ req, IsRequest ((r.writeTo ho).out ++ rest) req (w.out ++ rest) ∧
      req.tcp_header.request_id = chosenId rid ids ∧ req.tcp_header.isHandshake = hs ∧
      req.tcp_header.isCompress = cp ∧ SameContext req.ctx ctx ∧ req.features = f ∧ req.action = a ∧
      req.tcp_header.isError = false := by
  obtain ⟨req, q1, q2⟩ := request_on_wire_any ho h hctx hf ha hv1 hv2 hid1 hid2 hsz
  exact ⟨req, q1 rest, q2⟩

/-- The declared size of a built request. -/
theorem requestNew_size {ctx f w ver a rid hs cp ids r ids'}
    (h : OutboundRequest.new (some ctx) f (some w) ver a rid hs cp ids = (.ok r, ids')) :
    r.tcp_header.size = 17 + ctx.size + (OutboundRequest.variableBytes f a).out.length + w.out.length ∧
    w.err = none := by
  have hb := (C21_invariant _ (Built.request h)).1
  obtain ⟨m, hm, e⟩ := requestNew_ok h
  have k := setFlags_keeps (m.setVariableBytes (OutboundRequest.variableBytes f a).out) hs cp
  have hmm := (new_ok hm).2
  have er : r.toOutboundMessage = (m.setVariableBytes (OutboundRequest.variableBytes f a).out).setFlags hs cp := by
    rw [e]
  have e1 : r.ctx = ctx := by rw [er, k.2.2.2.2.1]; show m.ctx = _; rw [hmm]; rfl
  have e2 : r.variable_bytes = some (OutboundRequest.variableBytes f a).out := by
    rw [er, k.2.2.2.2.2.1]; rfl
  have e3 : r.message_bytes = some w.out := by
    rw [er, k.2.2.2.2.2.2]; show m.message_bytes = _; rw [hmm]; rfl
  rw [hb, e1, e2, e3]
  exact ⟨rfl, (new_ok hm).1 w rfl⟩

end Verif
