import Verif.Spec.Build
import Verif.Lemmas.Message
import Verif.Props.Header
import Verif.Spec.Context
/-!
# C21 - C24: outbound messages
-/

namespace Verif
open Py StreamInput StreamOutput Spec

/-- The header's two size fields agree with the parts of the message. -/
def Balanced (m : OutboundMessage) : Prop :=
  m.tcp_header.size = 17 + m.ctx.size + optLen m.variable_bytes + optLen m.message_bytes ∧
  m.tcp_header.variable_header_size = m.ctx.size + optLen m.variable_bytes

theorem balanced_setVariable {m : OutboundMessage} (h : Balanced m) (b : Bytes) :
    Balanced (m.setVariableBytes b) := by
  obtain ⟨h1, h2⟩ := h
  unfold Balanced OutboundMessage.setVariableBytes at *
  cases hv : m.variable_bytes with
  | none => simp only [hv, optLen, Option.getD] at *; constructor <;> simp at * <;> omega
  | some l =>
    cases l with
    | nil => simp only [hv, optLen, Option.getD] at *; constructor <;> simp at * <;> omega
    | cons x xs => simp only [hv, optLen, Option.getD] at *; constructor <;> simp at * <;> omega

theorem balanced_setMessage {m : OutboundMessage} (h : Balanced m) (b : Bytes) :
    Balanced (m.setMessageBytes b) := by
  obtain ⟨h1, h2⟩ := h
  unfold Balanced OutboundMessage.setMessageBytes at *
  cases hv : m.message_bytes with
  | none => simp only [hv, optLen, Option.getD] at *; constructor <;> simp at * <;> omega
  | some l =>
    cases l with
    | nil => simp only [hv, optLen, Option.getD] at *; constructor <;> simp at * <;> omega
    | cons x xs => simp only [hv, optLen, Option.getD] at *; constructor <;> simp at * <;> omega

theorem headerNew_size (ver : VerField) (st : Int) (rid : Option Int) (ids : Nat) :
    (TcpHeader.new ver st rid ids).1.size = 17 ∧ (TcpHeader.new ver st rid ids).1.version = ver ∧
    (TcpHeader.new ver st rid ids).1.status = st ∧
    (TcpHeader.new ver st rid ids).1.marker = TcpHeader.ES := by
  unfold TcpHeader.new
  cases rid with
  | none => exact ⟨rfl, rfl, rfl, rfl⟩
  | some i => dsimp only; split <;> exact ⟨rfl, rfl, rfl, rfl⟩

/-- What `OutboundMessage(...)` builds when it does not raise. -/
theorem new_ok {ctx ver st rid msg ids m ids'} (h : OutboundMessage.new ctx ver st rid msg ids = (.ok m, ids')) :
    (∀ w, msg = some w → w.err = none) ∧
    m = ⟨{ (TcpHeader.new ver st rid ids).1 with
            size := 17 + (ctx.getD {}).size + optLen (msg.map W.out)
            variable_header_size := (ctx.getD {}).size }, ctx.getD {}, none, msg.map W.out⟩ := by
  have hs := (headerNew_size ver st rid ids).1
  unfold OutboundMessage.new at h
  cases msg with
  | none =>
    simp only [Prod.mk.injEq, Except.ok.injEq] at h
    refine ⟨by simp, ?_⟩
    rw [← h.1, hs]; simp [optLen]
  | some w =>
    simp only at h
    cases hw : w.err with
    | some e => rw [hw] at h; simp at h
    | none =>
      rw [hw] at h
      simp only [Prod.mk.injEq, Except.ok.injEq] at h
      refine ⟨by simp [hw], ?_⟩
      rw [← h.1, hs]; simp [optLen]

theorem balanced_new {ctx ver st rid msg ids m ids'}
    (h : OutboundMessage.new ctx ver st rid msg ids = (.ok m, ids')) : Balanced m := by
  rw [(new_ok h).2]; unfold Balanced; simp [optLen]

/-- The flag assignments of the two constructors. -/
def flagOps (hs cp : Bool) : List Assign :=
  (if hs then [Assign.handshake true] else []) ++ (if cp then [Assign.compress true] else [])

theorem setFlags_eq (m : OutboundMessage) (hs cp : Bool) :
    m.setFlags hs cp = { m with tcp_header := (flagOps hs cp).foldl assign m.tcp_header } := by
  cases hs <;> cases cp <;> rfl

theorem balanced_header {m : OutboundMessage} {h : TcpHeader} (hb : Balanced m)
    (h1 : h.size = m.tcp_header.size) (h2 : h.variable_header_size = m.tcp_header.variable_header_size) :
    Balanced { m with tcp_header := h } := by
  unfold Balanced at *; simp only [h1, h2]; exact hb

theorem balanced_setFlags {m : OutboundMessage} (h : Balanced m) (hs cp : Bool) :
    Balanced (m.setFlags hs cp) := by
  rw [setFlags_eq]
  have := (C20_independent m.tcp_header (flagOps hs cp)).2.2.2
  exact balanced_header h this.2.2.2.1 this.2.2.2.2

/-- What `OutboundMessageRequest(...)` builds when it does not raise. -/
theorem requestNew_ok {ctx f msg ver a rid hs cp ids r ids'}
    (h : OutboundRequest.new ctx f msg ver a rid hs cp ids = (.ok r, ids')) :
    ∃ m, OutboundMessage.new ctx ver 0 rid msg ids = (.ok m, ids') ∧
      r = { (m.setVariableBytes (OutboundRequest.variableBytes f a).out).setFlags hs cp with
            features := f, action := a } := by
  unfold OutboundRequest.new at h
  rcases hn : OutboundMessage.new ctx ver 0 rid msg ids with ⟨x, ids''⟩
  rw [hn] at h
  cases x with
  | error e => simp at h
  | ok m =>
    simp only [Prod.mk.injEq, Except.ok.injEq] at h
    exact ⟨m, by rw [h.2], h.1.symm⟩

/-- What `OutboundMessageResponse(...)` builds when it does not raise. -/
theorem responseNew_ok {ctx f msg ver rid hs cp ids r ids'}
    (h : OutboundResponse.new ctx f msg ver rid hs cp ids = (.ok r, ids')) :
    ∃ m, OutboundMessage.new ctx ver STATUS_REQRES rid msg ids = (.ok m, ids') ∧
      r = { m.setFlags hs cp with features := f } := by
  unfold OutboundResponse.new at h
  rcases hn : OutboundMessage.new ctx ver STATUS_REQRES rid msg ids with ⟨x, ids''⟩
  rw [hn] at h
  cases x with
  | error e => simp at h
  | ok m =>
    simp only [Prod.mk.injEq, Except.ok.injEq] at h
    exact ⟨m, by rw [h.2], h.1.symm⟩

/-! ## C21 -/

/-- C21: whatever message is built and however often its parts are replaced, the two size fields
of its header are right. -/
theorem C21_invariant (m : OutboundMessage) (h : Built m) :
    m.tcp_header.size = 17 + m.ctx.size + optLen m.variable_bytes + optLen m.message_bytes ∧
    m.tcp_header.variable_header_size = m.ctx.size + optLen m.variable_bytes := by
  show Balanced m
  induction h with
  | message h => exact balanced_new h
  | request h =>
    obtain ⟨m, hm, rfl⟩ := requestNew_ok h
    exact balanced_setFlags (balanced_setVariable (balanced_new hm) _) _ _
  | response h =>
    obtain ⟨m, hm, rfl⟩ := responseNew_ok h
    exact balanced_setFlags (balanced_new hm) _ _
  | setVariable b _ ih => exact balanced_setVariable ih b
  | setMessage b _ ih => exact balanced_setMessage ih b
  | @setFlag m a _ ih =>
    have := (assign_step m.tcp_header a).2.2.2
    exact balanced_header ih this.2.2.2.1 this.2.2.2.2

example := C21_invariant _ (.setFlag (.handshake true) (.setVariable [1, 2] (.setMessage [7]
  (.message (ctx := some { request_headers := [("é", "1")] }) (ver := .obj (Version.new 3000099)) (st := 3)
    (rid := none) (msg := some (writeString "body")) (ids := 41) rfl))))

/-- C21, the parts: assignments replace exactly the part assigned to. -/
theorem C21_parts (m : OutboundMessage) (b : Bytes) :
    (m.setVariableBytes b).variable_bytes = some b ∧
    (m.setVariableBytes b).message_bytes = m.message_bytes ∧ (m.setVariableBytes b).ctx = m.ctx ∧
    (m.setMessageBytes b).message_bytes = some b ∧
    (m.setMessageBytes b).variable_bytes = m.variable_bytes ∧ (m.setMessageBytes b).ctx = m.ctx :=
  ⟨rfl, rfl, rfl, rfl, rfl, rfl⟩

example : ∃ r ids', OutboundRequest.new none ["f"] (some (writeString "body")) (.obj (Version.new 3000099))
    "internal:x" none true false 41 = (.ok r, ids') ∧ r.tcp_header.size = 17 + 2 + 14 + 5 ∧
    r.tcp_header.request_id = 41 ∧ ids' = 42 := ⟨_, _, rfl, by decide +kernel, rfl, rfl⟩

/-! ## C22 -/

/-- How a message is laid out: header, then context and variable bytes, then the body. -/
theorem writeTo_parts (ho : HashOrder) (m : OutboundMessage) (h : m.tcp_header.writeTo.err = none) :
    (m.writeTo ho).err = none ∧
    (m.writeTo ho).out = m.tcp_header.writeTo.out ++ ((m.ctx.writeTo ho).out ++ m.variable_bytes.getD []) ++
      m.message_bytes.getD [] := by
  unfold OutboundMessage.writeTo
  rw [writeOpt_eq, writeOpt_eq]
  refine ⟨by simp [h, ctx_writeTo_err], ?_⟩
  rw [W.out_append h, W.out_append (ctx_writeTo_err ho _), W.out_append (by rfl)]
  simp

/-- C22, exactly: the bytes on the wire exceed the declared frame length by what the context's
size prediction falls short (see C14). -/
theorem C22_exact (ho : HashOrder) (m : OutboundMessage) (v : Version) (hm : Built m)
    (hok : HeaderOK m.tcp_header v) :
    (m.writeTo ho).err = none ∧
    ((m.writeTo ho).out.length : Int) =
      m.tcp_header.size + 6 + ((m.ctx.writeTo ho).out.length - m.ctx.size) := by
  have hp := writeTo_parts ho m (rt_header hok).1
  have hb := C21_invariant m hm
  refine ⟨hp.1, ?_⟩
  have hl := header_length hok
  simp only [optLen] at hb
  rw [hp.2]
  simp only [List.length_append, hl]
  omega

example := C22_exact idOrder _ (Version.new 3000099)
  (.setVariable [1, 2] (.message (ctx := some { request_headers := [("é", "1")] }) (ver := .obj (Version.new 3000099))
    (st := 3) (rid := none) (msg := some (writeString "body")) (ids := 41) rfl)) (by constructor <;> decide +kernel)

/-- C22, the part that holds: with context headers that are ASCII or under 128 bytes, the declared
frame length plus the 6 bytes of marker and length is the number of bytes on the wire, and the
variable-header field delimits exactly the context and the variable bytes. -/
theorem C22_partial (ho : HashOrder) (m : OutboundMessage) (v : Version) (hm : Built m)
    (hok : HeaderOK m.tcp_header v) (hs : CtxSized m.ctx) :
    (m.writeTo ho).err = none ∧ ((m.writeTo ho).out.length : Int) = m.tcp_header.size + 6 ∧
    ∃ hdr var body : Bytes, (m.writeTo ho).out = hdr ++ var ++ body ∧ hdr.length = 23 ∧
      (var.length : Int) = m.tcp_header.variable_header_size ∧ body = m.message_bytes.getD [] := by
  have hx := C22_exact ho m v hm hok
  have hl := ctx_writeTo_length ho hs
  have hp := writeTo_parts ho m (rt_header hok).1
  have hb := C21_invariant m hm
  refine ⟨hx.1, by rw [hx.2, hl]; omega, _, _, _, hp.2, header_length hok, ?_, rfl⟩
  simp only [optLen] at hb
  rw [List.length_append, hl]; omega

example := C22_partial idOrder _ (Version.new 3000099)
  (.setVariable [1, 2] (.message (ctx := some { request_headers := [("é", "1")] }) (ver := .obj (Version.new 3000099))
    (st := 3) (rid := none) (msg := some (writeString "body")) (ids := 41) rfl)) (by constructor <;> decide +kernel)
  (by constructor <;> decide +kernel)

/-- C22 is violated: a request whose context has the header "é" * 64 is one byte longer than it
declares. -/
theorem C22_violated : ∃ (m : OutboundMessage) (v : Version), Built m ∧ HeaderOK m.tcp_header v ∧
    CtxOK m.ctx ∧ ((m.writeTo idOrder).out.length : Int) = m.tcp_header.size + 7 := by
  refine ⟨_, Version.new 3000099, Built.response (ctx := some
    { request_headers := [(String.ofList (List.replicate 64 'é'), "")] })
    (f := []) (msg := none) (ver := .obj (Version.new 3000099)) (rid := some 1) (hs := false) (cp := false)
    (ids := 0) rfl, ?_, by decide +kernel, by decide +kernel⟩
  constructor <;> decide +kernel

/-! ## C23, C24 -/

theorem sameContext_iter (ho : HashOrder) (c : ThreadContext) : SameContext (c.iter ho) c := by
  refine ⟨rfl, ?_⟩
  unfold ThreadContext.iter
  induction c.response_headers with
  | nil => exact List.Forall₂.nil
  | cons kv d ih => exact List.Forall₂.cons ⟨rfl, ho.perm _⟩ ih

/-- Reading a message (header first or together) up to its variable bytes. -/
theorem read_message (ho : HashOrder) (m self : OutboundMessage) (v : Version) (hb : Balanced m)
    (hok : HeaderOK m.tcp_header v) (hc : CtxOK m.ctx) (rest : Bytes) :
    0 < m.tcp_header.variable_header_size ∧
    self.readFrom none ((m.writeTo ho).out ++ rest) =
      .ok ({ self with tcp_header := m.tcp_header, ctx := m.ctx.iter ho,
                       variable_bytes := some (m.variable_bytes.getD []) },
        m.message_bytes.getD [] ++ rest) ∧
    ∃ rest1, TcpHeader.readFrom ((m.writeTo ho).out ++ rest) = .ok (m.tcp_header, rest1) ∧
      self.readFrom (some m.tcp_header) rest1 =
      .ok ({ self with tcp_header := m.tcp_header, ctx := m.ctx.iter ho,
                       variable_bytes := some (m.variable_bytes.getD []) },
        m.message_bytes.getD [] ++ rest) := by
  have hp := (writeTo_parts ho m (rt_header hok).1).2
  have hh := rt_header hok
  have hctx := rt_ctx ho hc
  obtain ⟨hb1, hb2⟩ := hb
  have hpos : 0 < m.tcp_header.variable_header_size := by
    have : 1 ≤ m.ctx.size := by
      unfold ThreadContext.size; rw [stringDictSize_eq, vIntSize_nat]
      have := varint_length_pos m.ctx.request_headers.length; omega
    omega
  have hdr : TcpHeader.readFrom ((m.writeTo ho).out ++ rest) = .ok (m.tcp_header,
      (m.ctx.writeTo ho).out ++ (m.variable_bytes.getD [] ++ (m.message_bytes.getD [] ++ rest))) := by
    rw [hp]; simp only [List.append_assoc]; exact hh.2 _
  have body : ∀ t : Bytes, self.readFrom (some m.tcp_header) ((m.ctx.writeTo ho).out ++
      (m.variable_bytes.getD [] ++ t)) =
      .ok ({ self with tcp_header := m.tcp_header, ctx := m.ctx.iter ho,
                       variable_bytes := some (m.variable_bytes.getD []) }, t) := by
    intro t
    unfold OutboundMessage.readFrom
    simp only [pure_bind]
    rw [Reader.bind_ok (hctx.2 _), if_pos hpos]
    have : m.tcp_header.variable_header_size - ((m.ctx.iter ho).size : Int) =
        ((m.variable_bytes.getD []).length : Int) := by
      rw [ctx_iter_size, hb2]; simp only [optLen]; omega
    rw [this, Reader.bind_ok (readBytes_append _ _)]; rfl
  refine ⟨hpos, ?_, _, hdr, body _⟩
  have e : self.readFrom none = (TcpHeader.readFrom >>= fun h => self.readFrom (some h)) := by
    unfold OutboundMessage.readFrom; simp only [pure_bind]
  rw [e, Reader.bind_ok hdr]; exact body _

theorem flags_new_request {ctx ver rid msg ids m ids'} (f : Bytes)
    (hm : OutboundMessage.new ctx ver 0 rid msg ids = (.ok m, ids')) (hs cp : Bool) :
    ((m.setVariableBytes f).setFlags hs cp).tcp_header.flags = ⟨false, false, cp, hs⟩ := by
  rw [setFlags_eq]
  simp only
  rw [(C20_independent _ _).1]
  have : (m.setVariableBytes f).tcp_header.flags = ⟨false, false, false, false⟩ := by
    have e : (m.setVariableBytes f).tcp_header.status = 0 := by
      rw [(new_ok hm).2]; exact (headerNew_size ver 0 rid ids).2.2.1
    unfold TcpHeader.flags TcpHeader.isResponse TcpHeader.isError TcpHeader.isCompress
      TcpHeader.isHandshake TcpHeader.isStatus
    rw [e]; rfl
  rw [this]; cases hs <;> cases cp <;> rfl

theorem flags_new_response {ctx ver rid msg ids m ids'}
    (hm : OutboundMessage.new ctx ver STATUS_REQRES rid msg ids = (.ok m, ids')) (hs cp : Bool) :
    (m.setFlags hs cp).tcp_header.flags = ⟨true, false, cp, hs⟩ := by
  rw [setFlags_eq]
  simp only
  rw [(C20_independent _ _).1]
  have : m.tcp_header.flags = ⟨true, false, false, false⟩ := by
    have e : m.tcp_header.status = STATUS_REQRES := by
      rw [(new_ok hm).2]; exact (headerNew_size ver STATUS_REQRES rid ids).2.2.1
    unfold TcpHeader.flags TcpHeader.isResponse TcpHeader.isError TcpHeader.isCompress
      TcpHeader.isHandshake TcpHeader.isStatus
    rw [e]; rfl
  rw [this]; cases hs <;> cases cp <;> rfl

theorem headerNew_id (ver : VerField) (st : Int) (rid : Option Int) (ids : Nat) :
    (TcpHeader.new ver st rid ids).1.request_id = chosenId rid ids := by
  unfold TcpHeader.new chosenId
  cases rid with
  | none => rfl
  | some i => dsimp only; split <;> rfl

theorem setFlags_keeps (m : OutboundMessage) (hs cp : Bool) :
    (m.setFlags hs cp).tcp_header.request_id = m.tcp_header.request_id ∧
    (m.setFlags hs cp).tcp_header.version = m.tcp_header.version ∧
    (m.setFlags hs cp).tcp_header.marker = m.tcp_header.marker ∧
    (-(2 ^ 7) ≤ m.tcp_header.status → m.tcp_header.status < 2 ^ 7 →
      -(2 ^ 7) ≤ (m.setFlags hs cp).tcp_header.status ∧ (m.setFlags hs cp).tcp_header.status < 2 ^ 7) ∧
    (m.setFlags hs cp).ctx = m.ctx ∧ (m.setFlags hs cp).variable_bytes = m.variable_bytes ∧
    (m.setFlags hs cp).message_bytes = m.message_bytes := by
  rw [setFlags_eq]
  have := C20_independent m.tcp_header (flagOps hs cp)
  exact ⟨this.2.2.2.2.1, this.2.2.2.2.2.1, this.2.2.2.1, this.2.2.1, rfl, rfl, rfl⟩

theorem setVariable_keeps (m : OutboundMessage) (b : Bytes) :
    (m.setVariableBytes b).tcp_header.request_id = m.tcp_header.request_id ∧
    (m.setVariableBytes b).tcp_header.version = m.tcp_header.version ∧
    (m.setVariableBytes b).tcp_header.marker = m.tcp_header.marker ∧
    (m.setVariableBytes b).tcp_header.status = m.tcp_header.status := by
  unfold OutboundMessage.setVariableBytes
  refine ⟨?_, ?_, ?_, ?_⟩ <;> (simp only; split <;> rfl)

theorem parseVariable_out {f : List String} {a : String} (hf : StrsOK f) (ha : StrOK a) :
    OutboundRequest.parseVariable (OutboundRequest.variableBytes f a).out = .ok (f, a) := by
  unfold OutboundRequest.parseVariable OutboundRequest.variableBytes
  have := (RoundTrips.seq (f := fun f => do let a ← readString; return (f, a)) (rt_stringArray hf)
    ((rt_string ha).map fun a => (f, a))).2 []
  rw [List.append_nil] at this
  rw [this]

/-- The message built by `OutboundMessageRequest(...)`, attribute by attribute, and when its header
fits the wire. -/
theorem request_facts {ctx f msg v a rid hs cp ids r ids'}
    (h : OutboundRequest.new ctx f msg (.obj v) a rid hs cp ids = (.ok r, ids'))
    (hv1 : 0 ≤ v.id) (hv2 : v.id < 2 ^ 32) (hid1 : -(2 ^ 63) ≤ chosenId rid ids)
    (hid2 : chosenId rid ids < 2 ^ 63) (hsz : r.tcp_header.size < 2 ^ 31) :
    Balanced r.toOutboundMessage ∧ HeaderOK r.tcp_header v ∧ r.ctx = ctx.getD {} ∧
    r.variable_bytes = some (OutboundRequest.variableBytes f a).out ∧
    r.message_bytes = msg.map W.out ∧ r.features = f ∧ r.action = a ∧
    r.tcp_header.request_id = chosenId rid ids ∧ r.tcp_header.flags = ⟨false, false, cp, hs⟩ := by
  have hbal : Balanced r.toOutboundMessage := C21_invariant _ (Built.request h)
  obtain ⟨m, hm, hr⟩ := requestNew_ok h
  have k1 := setFlags_keeps (m.setVariableBytes (OutboundRequest.variableBytes f a).out) hs cp
  have k2 := setVariable_keeps m (OutboundRequest.variableBytes f a).out
  have hn := headerNew_size (.obj v) 0 rid ids
  have hmm := (new_ok hm).2
  have fl := flags_new_request (OutboundRequest.variableBytes f a).out hm hs cp
  have er : r.toOutboundMessage = (m.setVariableBytes (OutboundRequest.variableBytes f a).out).setFlags hs cp := by
    rw [hr]
  have hst : m.tcp_header.status = 0 := by rw [hmm]; exact hn.2.2.1
  have hmk : m.tcp_header.marker = TcpHeader.ES := by rw [hmm]; exact hn.2.2.2
  have hve : m.tcp_header.version = .obj v := by rw [hmm]; exact hn.2.1
  have hrid : m.tcp_header.request_id = chosenId rid ids := by rw [hmm]; exact headerNew_id _ _ _ _
  have eid : r.tcp_header.request_id = chosenId rid ids := by rw [er, k1.1, k2.1, hrid]
  have est := k1.2.2.2.1 (by rw [k2.2.2.2, hst]; decide) (by rw [k2.2.2.2, hst]; decide)
  refine ⟨hbal, ?_, ?_, ?_, ?_, by rw [hr], by rw [hr], eid, by rw [er, fl]⟩
  · obtain ⟨b1, b2⟩ := hbal
    constructor
    · rw [er, k1.2.2.1, k2.2.2.1, hmk]; rfl
    · omega
    · exact hsz
    · rw [eid]; exact hid1
    · rw [eid]; exact hid2
    · rw [er]; exact est.1
    · rw [er]; exact est.2
    · rw [er, k1.2.1, k2.2.1, hve]
    · exact hv1
    · exact hv2
    · omega
    · omega
  · rw [er, k1.2.2.2.2.1]; show m.ctx = _; rw [hmm]
  · rw [er, k1.2.2.2.2.2.1]; rfl
  · rw [er, k1.2.2.2.2.2.2]; show m.message_bytes = _; rw [hmm]

theorem response_facts {ctx f msg v rid hs cp ids r ids'}
    (h : OutboundResponse.new ctx f msg (.obj v) rid hs cp ids = (.ok r, ids'))
    (hv1 : 0 ≤ v.id) (hv2 : v.id < 2 ^ 32) (hid1 : -(2 ^ 63) ≤ chosenId rid ids)
    (hid2 : chosenId rid ids < 2 ^ 63) (hsz : r.tcp_header.size < 2 ^ 31) :
    Balanced r.toOutboundMessage ∧ HeaderOK r.tcp_header v ∧ r.ctx = ctx.getD {} ∧
    r.variable_bytes = none ∧ r.message_bytes = msg.map W.out ∧ r.features = f ∧
    r.tcp_header.request_id = chosenId rid ids ∧ r.tcp_header.flags = ⟨true, false, cp, hs⟩ := by
  have hbal : Balanced r.toOutboundMessage := C21_invariant _ (Built.response h)
  obtain ⟨m, hm, hr⟩ := responseNew_ok h
  have k1 := setFlags_keeps m hs cp
  have hn := headerNew_size (.obj v) STATUS_REQRES rid ids
  have hmm := (new_ok hm).2
  have fl := flags_new_response hm hs cp
  have er : r.toOutboundMessage = m.setFlags hs cp := by rw [hr]
  have hst : m.tcp_header.status = STATUS_REQRES := by rw [hmm]; exact hn.2.2.1
  have hmk : m.tcp_header.marker = TcpHeader.ES := by rw [hmm]; exact hn.2.2.2
  have hve : m.tcp_header.version = .obj v := by rw [hmm]; exact hn.2.1
  have hrid : m.tcp_header.request_id = chosenId rid ids := by rw [hmm]; exact headerNew_id _ _ _ _
  have eid : r.tcp_header.request_id = chosenId rid ids := by rw [er, k1.1, hrid]
  have est := k1.2.2.2.1 (by rw [hst]; decide) (by rw [hst]; decide)
  refine ⟨hbal, ?_, ?_, ?_, ?_, by rw [hr], eid, by rw [er, fl]⟩
  · obtain ⟨b1, b2⟩ := hbal
    constructor
    · rw [er, k1.2.2.1, hmk]; rfl
    · omega
    · exact hsz
    · rw [eid]; exact hid1
    · rw [eid]; exact hid2
    · rw [er]; exact est.1
    · rw [er]; exact est.2
    · rw [er, k1.2.1, hve]
    · exact hv1
    · exact hv2
    · omega
    · omega
  · rw [er, k1.2.2.2.2.1, hmm]
  · rw [er, k1.2.2.2.2.2.1, hmm]
  · rw [er, k1.2.2.2.2.2.2, hmm]

/-- C23: any request a program can build and serialise is read back, into any message object, with
its header (request id, flags, version, sizes), thread context (up to set order), features and
action, and the stream is left exactly at the body; the same when the header is read first and
handed over (as the host does). -/
theorem C23_roundtrip (ho : HashOrder) {ctx : Option ThreadContext} {f : List String} {msg : Option W}
    {v : Version} {a : String} {rid : Option Int} {hs cp : Bool} {ids ids' : Nat} {r : OutboundRequest}
    (h : OutboundRequest.new ctx f msg (.obj v) a rid hs cp ids = (.ok r, ids'))
    (hctx : CtxOK (ctx.getD {})) (hf : StrsOK f) (ha : StrOK a)
    (hv1 : 0 ≤ v.id) (hv2 : v.id < 2 ^ 32) (hid1 : -(2 ^ 63) ≤ chosenId rid ids)
    (hid2 : chosenId rid ids < 2 ^ 63) (hsz : r.tcp_header.size < 2 ^ 31)
    (self : OutboundRequest) :
    (r.writeTo ho).err = none ∧
    ∃ r', r'.tcp_header = r.tcp_header ∧ r'.tcp_header.request_id = chosenId rid ids ∧
      r'.tcp_header.version = .obj v ∧ r'.tcp_header.flags = ⟨false, false, cp, hs⟩ ∧
      SameContext r'.ctx (ctx.getD {}) ∧ r'.features = f ∧ r'.action = a ∧
    ∀ rest, ∃ rest1,
      self.readFrom none ((r.writeTo ho).out ++ rest) = .ok (r', (msg.map W.out).getD [] ++ rest) ∧
      TcpHeader.readFrom ((r.writeTo ho).out ++ rest) = .ok (r.tcp_header, rest1) ∧
      self.readFrom (some r.tcp_header) rest1 = .ok (r', (msg.map W.out).getD [] ++ rest) := by
  obtain ⟨hb, hok, hc, hvb, hmb, hff, haa, hid, hfl⟩ := request_facts h hv1 hv2 hid1 hid2 hsz
  refine ⟨(writeTo_parts ho _ (rt_header hok).1).1,
    { self with tcp_header := r.tcp_header, ctx := r.ctx.iter ho,
                variable_bytes := some (r.variable_bytes.getD []), features := f, action := a },
    rfl, hid, hok.version, hfl, by rw [← hc]; exact sameContext_iter ho r.ctx, rfl, rfl, fun rest => ?_⟩
  obtain ⟨hpos, r1, rest1, r2, r3⟩ := read_message ho r.toOutboundMessage self.toOutboundMessage v hb hok
    (by rw [hc]; exact hctx) rest
  rw [hmb] at r1 r3
  refine ⟨rest1, ?_, r2, ?_⟩
  · unfold OutboundRequest.readFrom
    rw [Reader.bind_ok r1]
    simp only [if_pos hpos, hvb, Option.getD_some, parseVariable_out hf ha]
    rfl
  · unfold OutboundRequest.readFrom
    rw [Reader.bind_ok r3]
    simp only [if_pos hpos, hvb, Option.getD_some, parseVariable_out hf ha]
    rfl

example := C23_roundtrip idOrder (ctx := some { request_headers := [("é", "1")] }) (f := ["f"])
  (msg := some (writeString "body")) (v := Version.new 3000099) (a := "internal:x") (rid := some 7) (hs := true)
  (cp := false) (ids := 41) rfl (by decide +kernel) (by decide +kernel) (by decide +kernel) (by decide +kernel)
  (by decide +kernel) (by decide) (by decide) (by decide +kernel)

/-- C24: any response a program can build and serialise is read back with its header (request id,
flags, version, sizes) and thread context (up to set order), and the stream is left exactly at the
body. -/
theorem C24_roundtrip (ho : HashOrder) {ctx : Option ThreadContext} {f : List String} {msg : Option W}
    {v : Version} {rid : Option Int} {hs cp : Bool} {ids ids' : Nat} {r : OutboundResponse}
    (h : OutboundResponse.new ctx f msg (.obj v) rid hs cp ids = (.ok r, ids'))
    (hctx : CtxOK (ctx.getD {}))
    (hv1 : 0 ≤ v.id) (hv2 : v.id < 2 ^ 32) (hid1 : -(2 ^ 63) ≤ chosenId rid ids)
    (hid2 : chosenId rid ids < 2 ^ 63) (hsz : r.tcp_header.size < 2 ^ 31)
    (self : OutboundResponse) :
    (r.writeTo ho).err = none ∧
    ∃ r', r'.tcp_header = r.tcp_header ∧ r'.tcp_header.request_id = chosenId rid ids ∧
      r'.tcp_header.version = .obj v ∧ r'.tcp_header.flags = ⟨true, false, cp, hs⟩ ∧
      SameContext r'.ctx (ctx.getD {}) ∧
    ∀ rest, ∃ rest1,
      self.readFrom none ((r.writeTo ho).out ++ rest) = .ok (r', (msg.map W.out).getD [] ++ rest) ∧
      TcpHeader.readFrom ((r.writeTo ho).out ++ rest) = .ok (r.tcp_header, rest1) ∧
      self.readFrom (some r.tcp_header) rest1 = .ok (r', (msg.map W.out).getD [] ++ rest) := by
  obtain ⟨hb, hok, hc, hvb, hmb, hff, hid, hfl⟩ := response_facts h hv1 hv2 hid1 hid2 hsz
  refine ⟨(writeTo_parts ho _ (rt_header hok).1).1,
    { self with tcp_header := r.tcp_header, ctx := r.ctx.iter ho,
                variable_bytes := some (r.variable_bytes.getD []) },
    rfl, hid, hok.version, hfl, by rw [← hc]; exact sameContext_iter ho r.ctx, fun rest => ?_⟩
  obtain ⟨hpos, r1, rest1, r2, r3⟩ := read_message ho r.toOutboundMessage self.toOutboundMessage v hb hok
    (by rw [hc]; exact hctx) rest
  rw [hmb] at r1 r3
  refine ⟨rest1, ?_, r2, ?_⟩
  · unfold OutboundResponse.readFrom
    rw [Reader.bind_ok r1]; rfl
  · unfold OutboundResponse.readFrom
    rw [Reader.bind_ok r3]; rfl

example : CtxOK { request_headers := [("é", "1")], response_headers := [("k", ["b", "a"])] } := by
  decide +kernel

end Verif
