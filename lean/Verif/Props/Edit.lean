import Verif.Spec.Edit
import Verif.Props.Message
/-!
# Requests that are changed, or read and written again (C114)
-/

namespace Verif
open Py StreamInput StreamOutput Spec

/-- The header's size fields are right for a context of size `n`. -/
def SizedFor (n : Nat) (m : OutboundMessage) : Prop :=
  m.tcp_header.size = 17 + n + optLen m.variable_bytes + optLen m.message_bytes ∧
  m.tcp_header.variable_header_size = n + optLen m.variable_bytes

theorem sizedFor_setVariable {n : Nat} {m : OutboundMessage} (h : SizedFor n m) (b : Bytes) : SizedFor n (m.setVariableBytes b) := by
  obtain ⟨h1, h2⟩ := h
  unfold SizedFor OutboundMessage.setVariableBytes at *
  rcases hv : m.variable_bytes with _ | _ | ⟨x, xs⟩ <;>
    (simp only [hv, optLen, Option.getD] at *; constructor <;> simp at * <;> omega)

theorem sizedFor_setMessage {n : Nat} {m : OutboundMessage} (h : SizedFor n m) (b : Bytes) : SizedFor n (m.setMessageBytes b) := by
  obtain ⟨h1, h2⟩ := h
  unfold SizedFor OutboundMessage.setMessageBytes at *
  rcases hv : m.message_bytes with _ | _ | ⟨x, xs⟩ <;>
    (simp only [hv, optLen, Option.getD] at *; constructor <;> simp at * <;> omega)

theorem sizedFor_edit {n : Nat} {r : OutboundRequest} (h : SizedFor n r.toOutboundMessage) (e : RequestEdit) :
    SizedFor n (r.edit e).toOutboundMessage := by
  cases e with
  | variableBytes b => exact sizedFor_setVariable h b
  | messageBytes b => exact sizedFor_setMessage h b
  | flag a =>
    have := (assign_step r.tcp_header a).2.2.2
    unfold SizedFor at *
    simp only [OutboundRequest.edit, this.2.2.2.1, this.2.2.2.2]; exact h
  | context f => exact h
  | features l => exact h
  | action a => exact h
  | requestId i => exact h
  | version v => exact h

theorem sizedFor_edits {n : Nat} (es : List RequestEdit) : ∀ {r : OutboundRequest}, SizedFor n r.toOutboundMessage →
    SizedFor n (es.foldl OutboundRequest.edit r).toOutboundMessage := by
  induction es with
  | nil => exact id
  | cons e es ih => exact fun h => ih (sizedFor_edit h e)

/-- The parts of a constructed request. -/
theorem request_parts {ctx f msg ver a rid hs cp ids r ids'}
    (h : OutboundRequest.new ctx f msg ver a rid hs cp ids = (.ok r, ids')) :
    r.ctx = ctx.getD {} ∧ r.variable_bytes = some (OutboundRequest.variableBytes f a).out ∧
    r.message_bytes = msg.map W.out ∧ r.features = f ∧ r.action = a ∧ r.tcp_header.request_id = chosenId rid ids := by
  obtain ⟨m, hm, hr⟩ := requestNew_ok h
  have k1 := setFlags_keeps (m.setVariableBytes (OutboundRequest.variableBytes f a).out) hs cp
  have hmm := (new_ok hm).2
  have er : r.toOutboundMessage = (m.setVariableBytes (OutboundRequest.variableBytes f a).out).setFlags hs cp := by rw [hr]
  refine ⟨?_, ?_, ?_, by rw [hr], by rw [hr], ?_⟩
  · rw [er, k1.2.2.2.2.1]; show m.ctx = _; rw [hmm]
  · rw [er, k1.2.2.2.2.2.1]; rfl
  · rw [er, k1.2.2.2.2.2.2]; show m.message_bytes = _; rw [hmm]
  · rw [er, k1.1]; rw [hmm]; exact headerNew_id _ _ _ _

/-- C114, exactly: whatever is changed after the constructor, what is written has the declared length as far as the thread context
still has the size it had then. -/
theorem C114_length_partial (ho : HashOrder) {ctx : Option ThreadContext} {f : List String} {msg : Option W} {ver : VerField}
    {a : String} {rid : Option Int} {hs cp : Bool} {ids ids' : Nat} {r : OutboundRequest}
    (h : OutboundRequest.new ctx f msg ver a rid hs cp ids = (.ok r, ids')) (edits : List RequestEdit) {v : Version}
    (hok : HeaderOK (edits.foldl OutboundRequest.edit r).tcp_header v)
    (hs : CtxSized (edits.foldl OutboundRequest.edit r).ctx) :
    ((edits.foldl OutboundRequest.edit r).writeTo ho).err = none ∧
    (((edits.foldl OutboundRequest.edit r).writeTo ho).out.length : Int) =
      (edits.foldl OutboundRequest.edit r).tcp_header.size + 6 +
        ((edits.foldl OutboundRequest.edit r).ctx.size - (ctx.getD {}).size) := by
  have hb : SizedFor (ctx.getD {}).size r.toOutboundMessage := by
    have := C21_invariant _ (Built.request h)
    rw [(request_parts h).1] at this
    exact this
  have hb := sizedFor_edits edits hb
  generalize edits.foldl OutboundRequest.edit r = r1 at hb hok hs
  have hp := writeTo_parts ho r1.toOutboundMessage (rt_header hok).1
  refine ⟨hp.1, ?_⟩
  rw [hp.2]
  simp only [List.length_append]
  rw [header_length hok, ctx_writeTo_length ho hs]
  have := hb.1
  simp only [optLen] at this
  omega

/-- C114: a header added to or taken from the thread context after the constructor makes the declared length wrong. -/
theorem C114_context_violated (ho : HashOrder) {ctx : Option ThreadContext} {f : List String} {msg : Option W} {ver : VerField}
    {a : String} {rid : Option Int} {hs cp : Bool} {ids ids' : Nat} {r : OutboundRequest}
    (h : OutboundRequest.new ctx f msg ver a rid hs cp ids = (.ok r, ids')) (g : ThreadContext → ThreadContext) {v : Version}
    (hok : HeaderOK r.tcp_header v) (hs : CtxSized (g (ctx.getD {}))) (hg : (g (ctx.getD {})).size ≠ (ctx.getD {}).size) :
    ((r.edit (.context g)).writeTo ho).err = none ∧
    (((r.edit (.context g)).writeTo ho).out.length : Int) ≠ (r.edit (.context g)).tcp_header.size + 6 := by
  have hc := (request_parts h).1
  have hx := C114_length_partial ho h [.context g] (v := v) hok (by rw [← hc] at hs; exact hs)
  refine ⟨hx.1, ?_⟩
  have e : (List.foldl OutboundRequest.edit r [.context g]) = r.edit (.context g) := rfl
  rw [e] at hx
  rw [hx.2]
  have : (r.edit (.context g)).ctx = g (ctx.getD {}) := by rw [← hc]; rfl
  rw [this]
  omega

/-- Reading what an edited request wrote. -/
theorem read_edited (ho : HashOrder) {r self : OutboundRequest} {v : Version} {f : List String} {a : String}
    (hb : Balanced r.toOutboundMessage) (hok : HeaderOK r.tcp_header v) (hc : CtxOK r.ctx) (hf : StrsOK f) (ha : StrOK a)
    (hv : r.variable_bytes = some (OutboundRequest.variableBytes f a).out) (rest : Bytes) :
    ∃ r', self.readFrom none ((r.writeTo ho).out ++ rest) = .ok (r', r.message_bytes.getD [] ++ rest) ∧
      SameContext r'.ctx r.ctx ∧ r'.features = f ∧ r'.action = a ∧ r'.tcp_header = r.tcp_header := by
  obtain ⟨hpos, r1, -⟩ := read_message ho r.toOutboundMessage self.toOutboundMessage v hb hok hc rest
  refine ⟨
    { self with tcp_header := r.tcp_header, ctx := r.ctx.iter ho,
                variable_bytes := some (r.variable_bytes.getD []), features := f, action := a }, ?_, sameContext_iter ho r.ctx, rfl, rfl, rfl⟩
  unfold OutboundRequest.readFrom
  rw [Reader.bind_ok r1]
  simp only [if_pos hpos, hv, Option.getD_some, parseVariable_out hf ha]
  rfl

/-- C114: the features and the action assigned to a request are not sent: the peer reads those it was constructed with. -/
theorem C114_action_violated (ho : HashOrder) {ctx : Option ThreadContext} {f : List String} {msg : Option W} {ver : VerField}
    {a : String} {rid : Option Int} {hs cp : Bool} {ids ids' : Nat} {r : OutboundRequest}
    (h : OutboundRequest.new ctx f msg ver a rid hs cp ids = (.ok r, ids')) {v : Version} (hok : HeaderOK r.tcp_header v)
    (hctx : CtxOK (ctx.getD {})) (hf : StrsOK f) (ha : StrOK a) (f' : List String) (a' : String) (self : OutboundRequest)
    (rest : Bytes) :
    ∃ r', self.readFrom none ((((r.edit (.features f')).edit (.action a')).writeTo ho).out ++ rest) =
        .ok (r', (msg.map W.out).getD [] ++ rest) ∧ r'.features = f ∧ r'.action = a := by
  obtain ⟨hc, hv, hm, -, -, -⟩ := request_parts h
  have hb : Balanced r.toOutboundMessage := C21_invariant _ (Built.request h)
  obtain ⟨r', h1, -, h3, h4, -⟩ := read_edited ho (r := (r.edit (.features f')).edit (.action a')) (self := self) hb hok
    (by rw [← hc] at hctx; exact hctx) hf ha hv rest
  have e : ((r.edit (.features f')).edit (.action a')).message_bytes = r.message_bytes := rfl
  rw [e, hm] at h1
  exact ⟨r', h1, h3, h4⟩

theorem plain_edits (es : List RequestEdit) : ∀ (r : OutboundRequest) (c : Contents), (∀ e ∈ es, e.plain = true) →
    r.ctx = c.ctx → r.message_bytes.getD [] = c.body → r.tcp_header.request_id = c.id →
    (es.foldl OutboundRequest.edit r).ctx = (es.foldl Contents.edit c).ctx ∧
    (es.foldl OutboundRequest.edit r).variable_bytes = r.variable_bytes ∧
    (es.foldl OutboundRequest.edit r).message_bytes.getD [] = (es.foldl Contents.edit c).body ∧
    (es.foldl OutboundRequest.edit r).tcp_header.request_id = (es.foldl Contents.edit c).id ∧
    (es.foldl Contents.edit c).ctx = c.ctx ∧ (es.foldl Contents.edit c).features = c.features ∧
    (es.foldl Contents.edit c).action = c.action := by
  induction es with
  | nil => exact fun r c _ h1 h2 h3 => ⟨h1, rfl, h2, h3, rfl, rfl, rfl⟩
  | cons e es ih =>
    intro r c he h1 h2 h3
    have hp := he e (by simp)
    have step : (r.edit e).ctx = (c.edit e).ctx ∧ (r.edit e).variable_bytes = r.variable_bytes ∧
        (r.edit e).message_bytes.getD [] = (c.edit e).body ∧ (r.edit e).tcp_header.request_id = (c.edit e).id ∧
        (c.edit e).ctx = c.ctx ∧ (c.edit e).features = c.features ∧ (c.edit e).action = c.action := by
      cases e with
      | messageBytes b =>
        refine ⟨h1, rfl, rfl, ?_, rfl, rfl, rfl⟩
        show (r.toOutboundMessage.setMessageBytes b).tcp_header.request_id = c.id
        unfold OutboundMessage.setMessageBytes
        rw [← h3]
        rcases r.message_bytes with _ | _ | _ <;> rfl
      | flag a =>
        refine ⟨h1, rfl, h2, ?_, rfl, rfl, rfl⟩
        exact ((assign_step r.tcp_header a).2.2.2.2.1).trans h3
      | requestId i => exact ⟨h1, rfl, h2, rfl, rfl, rfl, rfl⟩
      | version v => exact ⟨h1, rfl, h2, h3, rfl, rfl, rfl⟩
      | variableBytes b => cases hp
      | context g => cases hp
      | features l => cases hp
      | action a => cases hp
    obtain ⟨s1, s2, s3, s4, s5, s6, s7⟩ := step
    obtain ⟨t1, t2, t3, t4, t5, t6, t7⟩ := ih (r.edit e) (c.edit e) (fun x hx => he x (by simp [hx])) s1 s3 s4
    exact ⟨t1, t2.trans s2, t3, t4, t5.trans s5, t6.trans s6, t7.trans s7⟩

/-- C114: if only the body, the id, the flags or the version are changed, the peer reads exactly the changed request. -/
theorem C114_plain_partial (ho : HashOrder) {ctx : Option ThreadContext} {f : List String} {msg : Option W} {ver : VerField}
    {a : String} {rid : Option Int} {hs cp : Bool} {ids ids' : Nat} {r : OutboundRequest}
    (h : OutboundRequest.new ctx f msg ver a rid hs cp ids = (.ok r, ids')) (edits : List RequestEdit)
    (he : ∀ e ∈ edits, e.plain = true) {v : Version} (hok : HeaderOK (edits.foldl OutboundRequest.edit r).tcp_header v)
    (hctx : CtxOK (ctx.getD {})) (hf : StrsOK f) (ha : StrOK a) (self : OutboundRequest) (rest : Bytes) :
    ∃ (r' : OutboundRequest) (c : Contents),
      c = edits.foldl Contents.edit ⟨ctx.getD {}, f, a, (msg.map W.out).getD [], chosenId rid ids⟩ ∧
      self.readFrom none (((edits.foldl OutboundRequest.edit r).writeTo ho).out ++ rest) = .ok (r', c.body ++ rest) ∧
      SameContext r'.ctx c.ctx ∧ r'.features = c.features ∧ r'.action = c.action ∧ r'.tcp_header.request_id = c.id ∧
      r'.tcp_header.version = .obj v := by
  obtain ⟨hc, hv, hm, -, -, hi⟩ := request_parts h
  obtain ⟨t1, t2, t3, t4, t5, t6, t7⟩ := plain_edits edits r ⟨ctx.getD {}, f, a, (msg.map W.out).getD [], chosenId rid ids⟩ he hc
    (by rw [hm]) hi
  have hb : Balanced (edits.foldl OutboundRequest.edit r).toOutboundMessage := by
    have hb : SizedFor r.ctx.size r.toOutboundMessage := C21_invariant _ (Built.request h)
    have := sizedFor_edits edits hb
    unfold SizedFor at this
    unfold Balanced
    rw [t1, t5]; rw [hc] at this; exact this
  obtain ⟨r', h1, h2, h3, h4, h5⟩ := read_edited ho (self := self) hb hok (by rw [t1, t5]; exact hctx) hf ha
    (t2.trans hv) rest
  refine ⟨r', _, rfl, by rw [← t3]; exact h1, by rw [← t1]; exact h2, h3.trans t6.symm, h4.trans t7.symm, by rw [h5]; exact t4,
    by rw [h5]; exact hok.version⟩

/-- C114: a request that was read is written without its body, but with the length it had: by as much as the body it is too
short. -/
theorem C114_relay_violated (ho ho' : HashOrder) {ctx : Option ThreadContext} {f : List String} {msg : Option W} {ver : VerField}
    {a : String} {rid : Option Int} {hs cp : Bool} {ids ids' : Nat} {r : OutboundRequest}
    (h : OutboundRequest.new ctx f msg ver a rid hs cp ids = (.ok r, ids')) {v : Version} (hok : HeaderOK r.tcp_header v)
    (hctx : CtxOK (ctx.getD {})) (hsz : CtxSized (ctx.getD {})) (hf : StrsOK f) (ha : StrOK a) (self : OutboundRequest)
    (hself : self.message_bytes = none) (rest : Bytes) :
    ∃ r', self.readFrom none ((r.writeTo ho).out ++ rest) = .ok (r', (msg.map W.out).getD [] ++ rest) ∧
      (r'.writeTo ho').err = none ∧ r'.tcp_header.size = r.tcp_header.size ∧
      (r'.writeTo ho').out.length + ((msg.map W.out).getD []).length = (r.writeTo ho).out.length := by
  obtain ⟨hc, hv, hm, -, -, -⟩ := request_parts h
  have hb : Balanced r.toOutboundMessage := C21_invariant _ (Built.request h)
  obtain ⟨hpos, r1, -⟩ := read_message ho r.toOutboundMessage self.toOutboundMessage v hb hok (by rw [hc]; exact hctx) rest
  have hread : self.readFrom none ((r.writeTo ho).out ++ rest) =
      .ok ({ self with tcp_header := r.tcp_header, ctx := r.ctx.iter ho,
                       variable_bytes := some (r.variable_bytes.getD []), features := f, action := a },
        (msg.map W.out).getD [] ++ rest) := by
    unfold OutboundRequest.readFrom
    rw [Reader.bind_ok r1]
    simp only [if_pos hpos, hv, Option.getD_some, parseVariable_out hf ha, hm]
    rfl
  refine ⟨_, hread, ?_⟩
  have k1 : ({ self with tcp_header := r.tcp_header, ctx := r.ctx.iter ho,
                         variable_bytes := some (r.variable_bytes.getD []), features := f, action := a } :
      OutboundRequest).tcp_header = r.tcp_header := rfl
  have k2 : ({ self with tcp_header := r.tcp_header, ctx := r.ctx.iter ho,
                         variable_bytes := some (r.variable_bytes.getD []), features := f, action := a } :
      OutboundRequest).ctx = r.ctx.iter ho := rfl
  have k3 : ({ self with tcp_header := r.tcp_header, ctx := r.ctx.iter ho,
                         variable_bytes := some (r.variable_bytes.getD []), features := f, action := a } :
      OutboundRequest).variable_bytes = some (r.variable_bytes.getD []) := rfl
  have k4 : ({ self with tcp_header := r.tcp_header, ctx := r.ctx.iter ho,
                         variable_bytes := some (r.variable_bytes.getD []), features := f, action := a } :
      OutboundRequest).message_bytes = none := hself
  generalize ({ self with tcp_header := r.tcp_header, ctx := r.ctx.iter ho,
                          variable_bytes := some (r.variable_bytes.getD []), features := f, action := a } :
      OutboundRequest) = r' at k1 k2 k3 k4
  have e1 := (writeTo_parts ho r.toOutboundMessage (rt_header hok).1).2
  have e2 := writeTo_parts ho' r'.toOutboundMessage (by rw [k1]; exact (rt_header hok).1)
  refine ⟨e2.1, by rw [k1], ?_⟩
  rw [e1, e2.2, k1, k2, k3, k4, hc, hm]
  simp only [List.length_append, Option.getD_some, Option.getD_none, List.length_nil]
  rw [ctx_writeTo_length ho hsz, ctx_writeTo_length ho' (ctxSized_iter ho hsz), ctx_iter_size]
  omega

/-- A request with everything in it. -/
def editSample : OutboundRequest :=
  match OutboundRequest.new (some { request_headers := [("é", "1")] }) ["f"] (some (writeString "body"))
      (.obj (Version.new 3000099)) "internal:x" (some 7) true false 41 with
  | (.ok r, _) => r
  | _ => { tcp_header := (TcpHeader.new .none 0 none 0).1, ctx := {}, variable_bytes := none, message_bytes := none,
           features := [], action := "" }

theorem editSample_new : OutboundRequest.new (some { request_headers := [("é", "1")] }) ["f"] (some (writeString "body"))
    (.obj (Version.new 3000099)) "internal:x" (some 7) true false 41 = (.ok editSample, 41) := by decide +kernel

theorem editSample_header : HeaderOK editSample.tcp_header (Version.new 3000099) := by constructor <;> decide +kernel

/-- C114: a header set later. -/
example := C114_context_violated idOrder editSample_new (fun c => { c with request_headers := c.request_headers.set "k" "v" })
  editSample_header (by unfold CtxSized; decide +kernel) (by decide +kernel)

example := C114_action_violated idOrder editSample_new editSample_header (by decide +kernel) (by decide +kernel) (by decide +kernel)
  ["g"] "internal:y"

example := C114_relay_violated idOrder idOrder editSample_new editSample_header (by decide +kernel) (by unfold CtxSized; decide +kernel)
  (by decide +kernel) (by decide +kernel) { editSample with message_bytes := none } rfl

example := C114_plain_partial idOrder editSample_new [.messageBytes [1, 2], .flag (.compress true), .requestId (-4)]
  (by decide +kernel) (v := Version.new 3000099) (by constructor <;> decide +kernel) (by decide +kernel) (by decide +kernel)
  (by decide +kernel)

example := C114_length_partial idOrder editSample_new [.messageBytes [1, 2], .context fun _ => {}, .action "z"]
  (v := Version.new 3000099) (by constructor <;> decide +kernel) (by unfold CtxSized; decide +kernel)

end Verif
