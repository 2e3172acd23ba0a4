import Verif.Props.Edit
/-!
# Responses that are changed, or read and written again (C114)
-/

namespace Verif
open Py StreamInput StreamOutput Spec

theorem sizedFor_editResponse {n : Nat} {r : OutboundResponse} (h : SizedFor n r.toOutboundMessage) (e : ResponseEdit) :
    SizedFor n (r.edit e).toOutboundMessage := by
  cases e with
  | variableBytes b => exact sizedFor_setVariable h b
  | messageBytes b => exact sizedFor_setMessage h b
  | flag a =>
    have := (assign_step r.tcp_header a).2.2.2
    unfold SizedFor at *
    simp only [OutboundResponse.edit, this.2.2.2.1, this.2.2.2.2]; exact h
  | context f => exact h
  | features l => exact h
  | requestId i => exact h
  | version v => exact h

theorem sizedFor_editsResponse {n : Nat} (es : List ResponseEdit) : ∀ {r : OutboundResponse}, SizedFor n r.toOutboundMessage →
    SizedFor n (es.foldl OutboundResponse.edit r).toOutboundMessage := by
  induction es with
  | nil => exact id
  | cons e es ih => exact fun h => ih (sizedFor_editResponse h e)

/-- The parts of a constructed response. -/
theorem response_parts {ctx f msg ver rid hs cp ids r ids'}
    (h : OutboundResponse.new ctx f msg ver rid hs cp ids = (.ok r, ids')) :
    r.ctx = ctx.getD {} ∧ r.variable_bytes = none ∧ r.message_bytes = msg.map W.out ∧ r.features = f ∧
    r.tcp_header.request_id = chosenId rid ids := by
  obtain ⟨m, hm, hr⟩ := responseNew_ok h
  have k1 := setFlags_keeps m hs cp
  have hmm := (new_ok hm).2
  have er : r.toOutboundMessage = m.setFlags hs cp := by rw [hr]
  refine ⟨?_, ?_, ?_, by rw [hr], ?_⟩
  · rw [er, k1.2.2.2.2.1, hmm]
  · rw [er, k1.2.2.2.2.2.1, hmm]
  · rw [er, k1.2.2.2.2.2.2, hmm]
  · rw [er, k1.1, hmm]; exact headerNew_id _ _ _ _

/-- C114 for responses, exactly: whatever is changed after the constructor, what is written has the declared length as far as the
thread context still has the size it had then. -/
theorem C114_response_length_partial (ho : HashOrder) {ctx : Option ThreadContext} {f : List String} {msg : Option W}
    {ver : VerField} {rid : Option Int} {hs cp : Bool} {ids ids' : Nat} {r : OutboundResponse}
    (h : OutboundResponse.new ctx f msg ver rid hs cp ids = (.ok r, ids')) (edits : List ResponseEdit) {v : Version}
    (hok : HeaderOK (edits.foldl OutboundResponse.edit r).tcp_header v)
    (hs : CtxSized (edits.foldl OutboundResponse.edit r).ctx) :
    ((edits.foldl OutboundResponse.edit r).writeTo ho).err = none ∧
    (((edits.foldl OutboundResponse.edit r).writeTo ho).out.length : Int) =
      (edits.foldl OutboundResponse.edit r).tcp_header.size + 6 +
        ((edits.foldl OutboundResponse.edit r).ctx.size - (ctx.getD {}).size) := by
  have hb : SizedFor (ctx.getD {}).size r.toOutboundMessage := by
    have := C21_invariant _ (Built.response h)
    rw [(response_parts h).1] at this
    exact this
  have hb := sizedFor_editsResponse edits hb
  generalize edits.foldl OutboundResponse.edit r = r1 at hb hok hs
  have hp := writeTo_parts ho r1.toOutboundMessage (rt_header hok).1
  refine ⟨hp.1, ?_⟩
  rw [hp.2]
  simp only [List.length_append]
  rw [header_length hok, ctx_writeTo_length ho hs]
  have := hb.1
  simp only [optLen] at this
  omega

/-- C114 for responses: a header added to or taken from the thread context after the constructor makes the declared length wrong. -/
theorem C114_response_context_violated (ho : HashOrder) {ctx : Option ThreadContext} {f : List String} {msg : Option W}
    {ver : VerField} {rid : Option Int} {hs cp : Bool} {ids ids' : Nat} {r : OutboundResponse}
    (h : OutboundResponse.new ctx f msg ver rid hs cp ids = (.ok r, ids')) (g : ThreadContext → ThreadContext) {v : Version}
    (hok : HeaderOK r.tcp_header v) (hs : CtxSized (g (ctx.getD {}))) (hg : (g (ctx.getD {})).size ≠ (ctx.getD {}).size) :
    ((r.edit (.context g)).writeTo ho).err = none ∧
    (((r.edit (.context g)).writeTo ho).out.length : Int) ≠ (r.edit (.context g)).tcp_header.size + 6 := by
  have hc := (response_parts h).1
  have hx := C114_response_length_partial ho h [.context g] (v := v) hok (by rw [← hc] at hs; exact hs)
  refine ⟨hx.1, ?_⟩
  have e : (List.foldl OutboundResponse.edit r [.context g]) = r.edit (.context g) := rfl
  rw [e] at hx
  rw [hx.2]
  have : (r.edit (.context g)).ctx = g (ctx.getD {}) := by rw [← hc]; rfl
  rw [this]
  omega

/-- C114 for responses: the object holds the features assigned last, whatever else is changed; but features are not sent at all,
neither those given to the constructor nor those assigned later; a response read keeps the features it was constructed with. -/
theorem C114_response_features_violated (ho : HashOrder) (r self : OutboundResponse) (f : List String) (header : Option TcpHeader) :
    (r.edit (.features f)).features = f ∧ (∀ e, (∀ l, e ≠ .features l) → (r.edit e).features = r.features) ∧
    (r.edit (.features f)).writeTo ho = r.writeTo ho ∧
    ∀ bs m rest, self.readFrom header bs = .ok (m, rest) → m.features = self.features := by
  refine ⟨rfl, fun e he => ?_, rfl, ?_⟩
  · cases e with
    | features l => exact absurd rfl (he l)
    | _ => rfl
  intro bs m rest h
  unfold OutboundResponse.readFrom at h
  obtain ⟨x, mid, h1, h2⟩ := Reader.bind_eq_ok.1 h
  cases h2
  rfl

theorem plain_editsResponse (es : List ResponseEdit) : ∀ (r : OutboundResponse) (c : ResponseContents), (∀ e ∈ es, e.plain = true) →
    r.ctx = c.ctx → r.variable_bytes.getD [] = c.bytes → r.message_bytes.getD [] = c.body → r.tcp_header.request_id = c.id →
    (es.foldl OutboundResponse.edit r).ctx = (es.foldl ResponseContents.edit c).ctx ∧
    (es.foldl OutboundResponse.edit r).variable_bytes.getD [] = (es.foldl ResponseContents.edit c).bytes ∧
    (es.foldl OutboundResponse.edit r).message_bytes.getD [] = (es.foldl ResponseContents.edit c).body ∧
    (es.foldl OutboundResponse.edit r).tcp_header.request_id = (es.foldl ResponseContents.edit c).id ∧
    (es.foldl ResponseContents.edit c).ctx = c.ctx := by
  induction es with
  | nil => exact fun r c _ h1 h2 h3 h4 => ⟨h1, h2, h3, h4, rfl⟩
  | cons e es ih =>
    intro r c he h1 h2 h3 h4
    have hp := he e (by simp)
    have step : (r.edit e).ctx = (c.edit e).ctx ∧ (r.edit e).variable_bytes.getD [] = (c.edit e).bytes ∧
        (r.edit e).message_bytes.getD [] = (c.edit e).body ∧ (r.edit e).tcp_header.request_id = (c.edit e).id ∧
        (c.edit e).ctx = c.ctx := by
      cases e with
      | messageBytes b =>
        refine ⟨h1, h2, rfl, ?_, rfl⟩
        show (r.toOutboundMessage.setMessageBytes b).tcp_header.request_id = c.id
        unfold OutboundMessage.setMessageBytes
        rw [← h4]
        rcases r.message_bytes with _ | _ | _ <;> rfl
      | variableBytes b =>
        refine ⟨h1, rfl, h3, ?_, rfl⟩
        show (r.toOutboundMessage.setVariableBytes b).tcp_header.request_id = c.id
        unfold OutboundMessage.setVariableBytes
        rw [← h4]
        rcases r.variable_bytes with _ | _ | _ <;> rfl
      | flag a =>
        refine ⟨h1, h2, h3, ?_, rfl⟩
        exact ((assign_step r.tcp_header a).2.2.2.2.1).trans h4
      | requestId i => exact ⟨h1, h2, h3, rfl, rfl⟩
      | version v => exact ⟨h1, h2, h3, h4, rfl⟩
      | features l => exact ⟨h1, h2, h3, h4, rfl⟩
      | context g => cases hp
    obtain ⟨s1, s2, s3, s4, s5⟩ := step
    obtain ⟨t1, t2, t3, t4, t5⟩ := ih (r.edit e) (c.edit e) (fun x hx => he x (by simp [hx])) s1 s2 s3 s4
    exact ⟨t1, t2, t3, t4, t5.trans s5⟩

/-- C114 for responses: unless the thread context is changed, the peer reads exactly the changed response (but for the features):
its context, variable bytes, body, id and version. -/
theorem C114_response_plain_partial (ho : HashOrder) {ctx : Option ThreadContext} {f : List String} {msg : Option W}
    {ver : VerField} {rid : Option Int} {hs cp : Bool} {ids ids' : Nat} {r : OutboundResponse}
    (h : OutboundResponse.new ctx f msg ver rid hs cp ids = (.ok r, ids')) (edits : List ResponseEdit)
    (he : ∀ e ∈ edits, e.plain = true) {v : Version} (hok : HeaderOK (edits.foldl OutboundResponse.edit r).tcp_header v)
    (hctx : CtxOK (ctx.getD {})) (self : OutboundResponse) (rest : Bytes) :
    ∃ (r' : OutboundResponse) (c : ResponseContents),
      c = edits.foldl ResponseContents.edit ⟨ctx.getD {}, [], (msg.map W.out).getD [], chosenId rid ids⟩ ∧
      self.readFrom none (((edits.foldl OutboundResponse.edit r).writeTo ho).out ++ rest) = .ok (r', c.body ++ rest) ∧
      SameContext r'.ctx c.ctx ∧ r'.variable_bytes = some c.bytes ∧ r'.tcp_header.request_id = c.id ∧
      r'.tcp_header.version = .obj v := by
  obtain ⟨hc, hv, hm, -, hi⟩ := response_parts h
  obtain ⟨t1, t2, t3, t4, t5⟩ := plain_editsResponse edits r ⟨ctx.getD {}, [], (msg.map W.out).getD [], chosenId rid ids⟩ he hc
    (by rw [hv]; rfl) (by rw [hm]) hi
  have hb : Balanced (edits.foldl OutboundResponse.edit r).toOutboundMessage := by
    have hb : SizedFor r.ctx.size r.toOutboundMessage := C21_invariant _ (Built.response h)
    have := sizedFor_editsResponse edits hb
    unfold SizedFor at this
    unfold Balanced
    rw [t1, t5]; rw [hc] at this; exact this
  generalize edits.foldl OutboundResponse.edit r = e at *
  obtain ⟨-, r1, -⟩ := read_message ho e.toOutboundMessage self.toOutboundMessage v hb hok (by rw [t1, t5]; exact hctx) rest
  refine ⟨{ self with tcp_header := e.tcp_header, ctx := e.ctx.iter ho, variable_bytes := some (e.variable_bytes.getD []) },
    _, rfl, ?_, by rw [← t1]; exact sameContext_iter ho e.ctx, by rw [← t2], t4, hok.version⟩
  unfold OutboundResponse.readFrom
  rw [Reader.bind_ok r1, t3]
  rfl

/-- C114 for responses: a response that was read is written without its body, but with the length it had. -/
theorem C114_response_relay_violated (ho ho' : HashOrder) {ctx : Option ThreadContext} {f : List String} {msg : Option W}
    {ver : VerField} {rid : Option Int} {hs cp : Bool} {ids ids' : Nat} {r : OutboundResponse}
    (h : OutboundResponse.new ctx f msg ver rid hs cp ids = (.ok r, ids')) {v : Version} (hok : HeaderOK r.tcp_header v)
    (hctx : CtxOK (ctx.getD {})) (hsz : CtxSized (ctx.getD {})) (self : OutboundResponse)
    (hself : self.message_bytes = none) (rest : Bytes) :
    ∃ r', self.readFrom none ((r.writeTo ho).out ++ rest) = .ok (r', (msg.map W.out).getD [] ++ rest) ∧
      (r'.writeTo ho').err = none ∧ r'.tcp_header.size = r.tcp_header.size ∧
      (r'.writeTo ho').out.length + ((msg.map W.out).getD []).length = (r.writeTo ho).out.length := by
  obtain ⟨hc, hv, hm, -, -⟩ := response_parts h
  have hb : Balanced r.toOutboundMessage := C21_invariant _ (Built.response h)
  obtain ⟨-, r1, -⟩ := read_message ho r.toOutboundMessage self.toOutboundMessage v hb hok (by rw [hc]; exact hctx) rest
  have hread : self.readFrom none ((r.writeTo ho).out ++ rest) =
      .ok ({ self with tcp_header := r.tcp_header, ctx := r.ctx.iter ho,
                       variable_bytes := some (r.variable_bytes.getD []) }, (msg.map W.out).getD [] ++ rest) := by
    unfold OutboundResponse.readFrom
    rw [Reader.bind_ok r1, hm]
    rfl
  refine ⟨_, hread, ?_⟩
  have k1 : ({ self with tcp_header := r.tcp_header, ctx := r.ctx.iter ho,
                         variable_bytes := some (r.variable_bytes.getD []) } : OutboundResponse).tcp_header = r.tcp_header := rfl
  have k2 : ({ self with tcp_header := r.tcp_header, ctx := r.ctx.iter ho,
                         variable_bytes := some (r.variable_bytes.getD []) } : OutboundResponse).ctx = r.ctx.iter ho := rfl
  have k3 : ({ self with tcp_header := r.tcp_header, ctx := r.ctx.iter ho,
                         variable_bytes := some (r.variable_bytes.getD []) } : OutboundResponse).variable_bytes =
      some (r.variable_bytes.getD []) := rfl
  have k4 : ({ self with tcp_header := r.tcp_header, ctx := r.ctx.iter ho,
                         variable_bytes := some (r.variable_bytes.getD []) } : OutboundResponse).message_bytes = none := hself
  generalize ({ self with tcp_header := r.tcp_header, ctx := r.ctx.iter ho,
                          variable_bytes := some (r.variable_bytes.getD []) } : OutboundResponse) = r' at k1 k2 k3 k4
  have e1 := (writeTo_parts ho r.toOutboundMessage (rt_header hok).1).2
  have e2 := writeTo_parts ho' r'.toOutboundMessage (by rw [k1]; exact (rt_header hok).1)
  refine ⟨e2.1, by rw [k1], ?_⟩
  rw [e1, e2.2, k1, k2, k3, k4, hc, hm]
  simp only [List.length_append, Option.getD_some, Option.getD_none, List.length_nil]
  rw [ctx_writeTo_length ho hsz, ctx_writeTo_length ho' (ctxSized_iter ho hsz), ctx_iter_size]
  omega

/-- A response with everything in it. -/
def editResponseSample : OutboundResponse :=
  match OutboundResponse.new (some { request_headers := [("é", "1")] }) ["f"] (some (writeString "body"))
      (.obj (Version.new 3000099)) (some 7) true false 41 with
  | (.ok r, _) => r
  | _ => { tcp_header := (TcpHeader.new .none 0 none 0).1, ctx := {}, variable_bytes := none, message_bytes := none,
           features := [] }

theorem editResponseSample_new : OutboundResponse.new (some { request_headers := [("é", "1")] }) ["f"] (some (writeString "body"))
    (.obj (Version.new 3000099)) (some 7) true false 41 = (.ok editResponseSample, 41) := by decide +kernel

theorem editResponseSample_header : HeaderOK editResponseSample.tcp_header (Version.new 3000099) := by
  constructor <;> decide +kernel

example := C114_response_context_violated idOrder editResponseSample_new
  (fun c => { c with request_headers := c.request_headers.set "k" "v" })
  editResponseSample_header (by unfold CtxSized; decide +kernel) (by decide +kernel)

example := C114_response_features_violated idOrder editResponseSample editResponseSample ["g"] none

example := C114_response_relay_violated idOrder idOrder editResponseSample_new editResponseSample_header (by decide +kernel)
  (by unfold CtxSized; decide +kernel) { editResponseSample with message_bytes := none } rfl

example := C114_response_plain_partial idOrder editResponseSample_new
  [.messageBytes [1, 2], .variableBytes [9], .flag (.compress true), .requestId (-4), .features ["h"]]
  (by decide +kernel) (v := Version.new 3000099) (by constructor <;> decide +kernel) (by decide +kernel)

example := C114_response_length_partial idOrder editResponseSample_new [.messageBytes [1, 2], .context fun _ => {}, .features []]
  (v := Version.new 3000099) (by constructor <;> decide +kernel) (by unfold CtxSized; decide +kernel)

end Verif
