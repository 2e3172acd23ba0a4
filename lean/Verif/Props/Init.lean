import Verif.Lemmas.HostSends
import Verif.Props.Protobuf
import Verif.Lemmas.Sample
/-!
# C44, C47: initialisation of the extension
-/

namespace Verif
open Py StreamInput StreamOutput

variable {σ H : Type}

/-- A well-formed response frame, as the host decodes it. -/
theorem response_frame_any {frame : Bytes} {w : W} {id : Int} (h : ResponseFrame frame w id) :
    w.err = none ∧ ∃ resp, (∀ trailing, IsResponse (frame ++ trailing) resp (w.out ++ trailing)) ∧
      resp.tcp_header.isError = false ∧ resp.tcp_header.request_id = id := by
  obtain ⟨ho, ctx, f, v, hs, cp, ids, ids', r, hnew, rfl, hctx, hv, hid, hsz⟩ := h
  have hch : chosenId (some id) ids = id := by unfold chosenId; simp [hid.2.2]
  obtain ⟨blank, hb, _⟩ := blankResponse_new 0
  obtain ⟨h1, r', h5, h6, h7, h8, h9, hall⟩ := C24_roundtrip ho hnew (by exact hctx)
    hv.1 hv.2 (by rw [hch]; exact hid.1) (by rw [hch]; exact hid.2.1) hsz blank
  simp only [Option.map_some, Option.getD_some] at hall h9
  have hf := h8
  unfold TcpHeader.flags at hf
  simp only [Spec.Flags.mk.injEq] at hf
  obtain ⟨m, hm, _⟩ := responseNew_ok hnew
  refine ⟨(new_ok hm).1 w rfl, r', fun trailing => ?_, hf.2.1, by rw [h6, hch]⟩
  obtain ⟨rest1, h2, _⟩ := hall trailing
  exact ⟨⟨0, 1, blank, hb, h2⟩, hf.1⟩

theorem response_frame_parses {frame : Bytes} {w : W} {id : Int} (h : ResponseFrame frame w id) (trailing : Bytes) :
    w.err = none ∧ ∃ resp, IsResponse (frame ++ trailing) resp (w.out ++ trailing) ∧
      resp.tcp_header.isError = false ∧ resp.tcp_header.request_id = id := by
  obtain ⟨h1, resp, h2, h3⟩ := response_frame_any h
  exact ⟨h1, resp, h2 trailing, h3⟩

/-- A built request that fits is written. -/
theorem request_writes (ho : HashOrder) {ctx : ThreadContext} {f : List String} {w : W} {a : String} {i i' : Nat}
    {n : OutboundRequest}
    (h : OutboundRequest.new (some ctx) f (some w) minCompat a none false false i = (.ok n, i'))
    (hi : i < 2 ^ 63)
    (hfit : 17 + ctx.size + (OutboundRequest.variableBytes f a).out.length + w.out.length < 2 ^ 31) :
    ∃ out, written (n.writeTo ho) = .ok (some out) := by
  have hsz := (requestNew_size h).1
  have hc : chosenId none i = (i : Int) := rfl
  have hf := request_facts h minCompat_range.1 minCompat_range.2 (by rw [hc]; omega) (by rw [hc]; omega)
    (by rw [hsz]; omega)
  have hwr := (writeTo_parts ho n.toOutboundMessage (rt_header hf.2.1).1).1
  exact ⟨_, (written_ok (w := n.toOutboundMessage.writeTo ho)).2 ⟨hwr, rfl⟩⟩

/-- The declared size of a built response. -/
theorem responseNew_size {ctx f w ver rid hs cp ids r ids'}
    (h : OutboundResponse.new (some ctx) f (some w) ver rid hs cp ids = (.ok r, ids')) :
    r.tcp_header.size = 17 + ctx.size + w.out.length := by
  have hb := (C21_invariant _ (Built.response h)).1
  obtain ⟨m, hm, e⟩ := responseNew_ok h
  have k := setFlags_keeps m hs cp
  have hmm := (new_ok hm).2
  have er : r.toOutboundMessage = m.setFlags hs cp := by rw [e]
  have e1 : r.ctx = ctx := by rw [er, k.2.2.2.2.1, hmm]; rfl
  have e2 : r.variable_bytes = none := by rw [er, k.2.2.2.2.2.1, hmm]
  have e3 : r.message_bytes = some w.out := by rw [er, k.2.2.2.2.2.2, hmm]; rfl
  rw [hb, e1, e2, e3]
  simp [optLen]

theorem other_step {env : Ext σ H} {ch : Choice} {s : Host σ} {raw : Bytes} {k : Int} {p : Pending}
    (hI : Inv env s) (hp : s.pending.get? k = some p) (hr : ¬ Responds raw k) :
    (onInput env ch s raw).1.pending.get? k = some p := by
  rcases onInput_effect env ch s raw with ⟨h1, _⟩ | ⟨resp, body, q, he, h1, _⟩ |
    ⟨req, body, q, ha, i, sreq, response, hi, h1, _, h2, _⟩
  · rw [h1, hp]
  · rw [h1, Dict.get?_erase hI.wf, if_neg, hp]
    intro e
    exact hr ⟨resp, body, q, he, e⟩
  · have hk := hI.range k (List.mem_map.2 ⟨_, Dict.get?_mem hp, rfl⟩)
    have hge := idsAfter_ge (some req.tcp_header.request_id) (s.ids + 2)
    rw [h2, Dict.get?_set, if_neg (by omega), Dict.get?_set, if_neg (by omega), hp]

theorem other_keeps {env : Ext σ H} {P : Bytes → Prop} {s s' : Host σ} {k : Int} {p : Pending}
    (hI : Inv env s) (hp : s.pending.get? k = some p) (hP : ∀ raw, P raw → ¬ Responds raw k)
    (e : Evolves env P s s') : s'.pending.get? k = some p := by
  induction e with
  | refl => exact hp
  | input ch raw e hraw ih => exact other_step (hI.evolves e) ih (hP raw hraw)
  | other n d x _ hn ih => exact ih

theorem init_keeps {env : Ext σ H} {P : Bytes → Prop} {s s' : Host σ}
    (hP : ∀ raw, P raw → ¬ Initialises raw) (e : Evolves env P s s') : s'.init = s.init := by
  induction e with
  | refl => rfl
  | @input s' ch raw e hraw ih =>
    rcases onInput_effect env ch s' raw with ⟨_, h1, _⟩ | ⟨resp, body, q, he, _, h1, _⟩ | ⟨req, body, q, ha, _⟩
    · rw [h1, ih]
    · rw [h1, ih]
    · exact (hP raw hraw ⟨req, body, q, ha⟩).elim
  | other n d x _ hn ih => exact ih

/-- A positive acknowledgement of a waiting registration sends the settings request behind it. -/
theorem ack_step (env : Ext σ H) (ch : Choice) {s : Host σ} {raw : Bytes} {resp : OutboundResponse} {body rest : Bytes}
    {n : OutboundRequest} {k : Int} (h : IsResponse raw resp body) (he : resp.tcp_header.isError = false)
    (hk : resp.tcp_header.request_id = k) (hp : s.pending.get? k = some (.registerRest n))
    (hack : AcknowledgedResponse.readFrom body = .ok (⟨true⟩, rest)) :
    onInput env ch s raw = ({ s with ids := s.ids + 2, pending := s.pending.erase k }, written (n.writeTo ch.ho)) := by
  subst hk
  rw [onInput_response h, he]
  simp only [Bool.false_eq_true, if_false]
  unfold handleResponse
  simp only [hp]
  unfold handleRegistered
  simp [hack]

/-- The settings answer sends the stored initialisation response. -/
theorem settings_step (env : Ext σ H) (ch : Choice) {s : Host σ} {raw : Bytes} {resp : OutboundResponse}
    {body rest : Bytes} {d : Dict String PyVal} {r : OutboundResponse} {k : Int} (h : IsResponse raw resp body)
    (he : resp.tcp_header.isError = false)
    (hk : resp.tcp_header.request_id = k) (hp : s.pending.get? k = some .settings) (hi : s.init = some r)
    (hset : Settings.readFrom env.depth s.settings body = (d, .ok rest)) :
    onInput env ch s raw = ({ s with ids := s.ids + 2, pending := s.pending.erase k, settings := d },
      written (r.writeTo ch.ho)) := by
  subst hk
  rw [onInput_response h, he]
  simp only [Bool.false_eq_true, if_false]
  unfold handleResponse
  simp only [hp]
  unfold handleSettings
  simp [hset, hi]

/-- A decoded initialise-extension request starts the sequence. -/
theorem init_step (env : Ext σ H) (ch : Choice) {s : Host σ} (hI : Inv env s) {raw : Bytes} {req : OutboundRequest}
    {body rest : Bytes} {m : InitializeExtensionRequest} (h : IsRequest raw req body)
    (ha : req.action = "internal:discovery/extensions") (hid : req.tcp_header.request_id ≠ 0)
    (hm : InitializeExtensionRequest.readFrom body = .ok (m, rest)) :
    ∃ (s1 : Host σ) (response : OutboundResponse) (sreq rreq : OutboundRequest),
      onInput env ch s raw = (s1, written (rreq.writeTo ch.ho)) ∧ s1.ids = s.ids + 4 ∧
      s1.init = some response ∧ IsInitResponse env response req (s.ids + 2) ∧
      IsSettingsRequest sreq req.ctx req.features (s.ids + 2) ∧
      IsRegisterRequest env rreq req.ctx req.features (s.ids + 3) ∧
      s1.pending = s.pending ++ [(((s.ids + 2 : Nat) : Int), .settings), (((s.ids + 3 : Nat) : Int), .registerRest sreq)] ∧
      s1.pending.get? ((s.ids + 2 : Nat) : Int) = some .settings ∧
      s1.pending.get? ((s.ids + 3 : Nat) : Int) = some (.registerRest sreq) := by
  obtain ⟨response, sreq, rreq, i, hi, h1, h2, h3, h4⟩ := handleInit_ok env ch { s with ids := s.ids + 2 } req hm
  have e : i = s.ids + 2 := by rw [hi]; unfold idsAfter; simp [hid]
  subst e
  have e1 : onInput env ch s raw = handleInit env ch { s with ids := s.ids + 2 } req body := by
    rw [onInput_request h]
    unfold handleRequest
    rw [if_pos ha]
  have e0 := e1.trans h4
  refine ⟨_, response, sreq, rreq, e0, rfl, rfl, h1, h2, h3, set_two hI (i := s.ids + 2) (by omega) _ _, ?_, ?_⟩
  · show ((s.pending.set _ _).set _ _).get? _ = _
    rw [Dict.get?_set, if_neg (by omega), Dict.get?_set, if_pos rfl]
  · show ((s.pending.set _ _).set _ _).get? _ = _
    rw [Dict.get?_set, if_pos rfl]

/-- Setting the entries of a dict one after another. -/
theorem get_foldl_entries (l : Dict String PyVal) (hl : l.WF) (d : Dict String PyVal) (k : String) :
    (l.foldl (fun d kv => Dict.set d kv.1 kv.2) d).get? k = (l.get? k).or (d.get? k) := by
  induction l generalizing d with
  | nil => rfl
  | cons kv l ih =>
    obtain ⟨h1, h2⟩ := List.nodup_cons.1 hl
    rw [List.foldl_cons, ih h2, Dict.get?_set]
    by_cases hk : kv.1 = k
    · subst hk
      rw [Dict.get?_eq_none.2 h1]
      simp [Dict.get?]
    · simp [Dict.get?, hk]

/-- C44.  In every reachable state `s`, with nothing assumed about other outstanding requests:

1. a well-formed initialise-extension frame (any id but 0, flags, thread context, features, nodes) makes
   the host send a register-REST-actions request carrying the extension's name and its routes; let `b` be
   its id;
2. after any other traffic, a positive acknowledgement of `b` makes it send an environment-settings request,
   with an id `a` different from `b`;
3. after any other traffic, an answer to `a` (any serialisable settings) makes it send the
   initialise response with the original id, flags and context, carrying the extension's name and
   interfaces.

The thread context of the initialisation is propagated to both requests. -/
theorem C44_sequence (env : Ext σ H) (s : Host σ) (hs : Reachable env s) {frame : Bytes} {ctx : ThreadContext}
    {f : List String} {m : InitializeExtensionRequest} {r : Int} {hsk cp : Bool}
    (hframe : RequestFrame frame ctx f m.writeTo "internal:discovery/extensions" r hsk cp)
    (hm1 : TaskIdOK m.parent_task_id) (hm2 : NodeOK m.source_node) (hm3 : ExtensionNodeOK m.extension)
    (hname : StrOK env.name) (hifs : StrsOK env.interfaces)
    (hids : s.ids + 4 < 2 ^ 63)
    (hroom : ctx.size + (writeStringArray f).out.length +
      (RegisterRestActionsRequest.new env.name env.registry.named_routes []).writeTo.out.length +
      (InitializeExtensionResponse.writeTo ⟨env.name, env.interfaces⟩).out.length < 2 ^ 31 - 1000)
    (ch1 : Choice) (trailing1 : Bytes) :
    ∃ (a b : Int) (s1 : Host σ) (out1 body1 : Bytes) (q1 : OutboundRequest) (m1 : RegisterRestActionsRequest),
      a ≠ b ∧ onInput env ch1 s (frame ++ trailing1) = (s1, .ok (some out1)) ∧ IsRequest out1 q1 body1 ∧
      q1.action = "internal:discovery/registerrestactions" ∧ q1.tcp_header.request_id = b ∧
      SameContext q1.ctx ctx ∧ q1.features = f ∧
      RegisterRestActionsRequest.readFrom body1 = .ok (m1, []) ∧ m1.rra.identity = some { uniqueId := env.name } ∧
      m1.rra.restActions = env.registry.named_routes ∧ m1.rra.deprecatedRestActions = [] ∧
    ∀ (s2 : Host σ), Evolves env (OtherTraffic a b) s1 s2 → ∀ (ack : Bytes),
      ResponseFrame ack (AcknowledgedResponse.writeTo ⟨true⟩) b → ∀ (ch2 : Choice) (trailing2 : Bytes),
    ∃ (s3 : Host σ) (out2 body2 : Bytes) (q2 : OutboundRequest) (m2 : ExtensionTransportRequest),
      onInput env ch2 s2 (ack ++ trailing2) = (s3, .ok (some out2)) ∧ IsRequest out2 q2 body2 ∧
      q2.action = "internal:discovery/enviornmentsettings" ∧ q2.tcp_header.request_id = a ∧
      SameContext q2.ctx ctx ∧ q2.features = f ∧
      ExtensionTransportRequest.readFrom body2 = .ok (m2, []) ∧
      m2.er.requestType = 4 ∧
    ∀ (s4 : Host σ), Evolves env (OtherTraffic a b) s3 s4 → ∀ (sets : Bytes) (d : Dict String PyVal),
      SettingsOK env.depth d → ResponseFrame sets (Settings.writeTo d) a → ∀ (ch3 : Choice) (trailing3 : Bytes),
    ∃ (s5 : Host σ) (out3 body3 : Bytes),
      onInput env ch3 s4 (sets ++ trailing3) = (s5, .ok (some out3)) ∧
      ReplyIs out3 r hsk cp ctx body3 ∧
      InitializeExtensionResponse.readFrom body3 = .ok (⟨env.name, env.interfaces⟩, []) ∧
      ∀ k, s5.settings.get? k = (d.get? k).or (s4.settings.get? k) := by
  have hI := hs.inv
  obtain ⟨hw, hfit, req, q1, q2, q3, q4, q5, q6, q7, q8, q9, q10⟩ := frame_parses hframe trailing1
  have hread := (rt_initRequest hm1 hm2 hm3).2 trailing1
  obtain ⟨s1, response, sreq, rreq, e1, e2, e3, e4, e5, e6, e7, e8, e9⟩ :=
    init_step env ch1 hI q1 q10 (by rw [q3]; exact q4.2.2) hread
  have hfeat := parsesAsRequest_features q1.1
  -- the sizes
  have hva : ∀ a : String, (utf8 a).length ≤ 60 → (OutboundRequest.variableBytes f a).out.length ≤
      (writeStringArray f).out.length + 70 := by
    intro a ha
    unfold OutboundRequest.variableBytes
    refine (append_length_le _ _).trans ?_
    rw [writeString_length]
    have : (varint (utf8 a).length).length ≤ 1 := (varint_length_le 0 _).2 (by omega)
    omega
  have hv1 := hva "internal:discovery/registerrestactions" (by decide +kernel)
  have hv2 := hva "internal:discovery/enviornmentsettings" (by decide +kernel)
  have hrw : (RegisterRestActionsRequest.new env.name env.registry.named_routes []).rra.serialize.length < 2 ^ 31 := by
    have : (RegisterRestActionsRequest.new env.name env.registry.named_routes []).rra.serialize.length ≤
        (RegisterRestActionsRequest.new env.name env.registry.named_routes []).writeTo.out.length := by
      unfold RegisterRestActionsRequest.writeTo
      have ht : (RegisterRestActionsRequest.new env.name env.registry.named_routes []).parent_task_id.writeTo.err
          = none := taskId_err
      rw [W.out_append ht, W.out_append (by simp)]
      simp only [W.emit_out, List.length_append]; omega
    omega
  obtain ⟨out1, o1⟩ := request_writes ch1.ho e6 (by omega) (by rw [q8, q9]; omega)
  obtain ⟨r1, w1, w2, w3, w4, w5⟩ := sent_request e6 q2 hfeat registerAction_ok o1
  obtain ⟨c1, c2⟩ := C61_register_rest_actions env.name env.registry.named_routes [] hrw
  obtain ⟨m1, c3, c4, c5, c6⟩ := c2 []
  rw [List.append_nil] at c3
  refine ⟨((s.ids + 2 : Nat) : Int), ((s.ids + 3 : Nat) : Int), s1, out1, _, r1, m1, by omega, by rw [e1, o1], w1, w5, w2,
    w3.trans q7, by rw [w4, q9], c3, c4, c5, c6, ?_⟩
  intro s2 hev2 ack hack ch2 trailing2
  have hI1 : Inv env s1 := by have := hI.onInput ch1 (frame ++ trailing1); rw [e1] at this; exact this
  have hI2 := hI1.evolves hev2
  have p2 := other_keeps hI1 e9 (fun raw h => h.2.2) hev2
  have p2' := other_keeps hI1 e8 (fun raw h => h.2.1) hev2
  have i2 := init_keeps (fun raw h => h.1) hev2
  obtain ⟨_, resp, x1, x2, x3⟩ := response_frame_parses hack trailing2
  have y1 := ack_step env ch2 x1 x2 x3 p2 ((rt_ack ⟨true⟩).2 trailing2)
  have hetr : (ExtensionTransportRequest.new .REQUEST_EXTENSION_ENVIRONMENT_SETTINGS "").writeTo.out.length ≤ 100 := by
    decide +kernel
  obtain ⟨out2, o2⟩ := request_writes ch2.ho e5 (by omega) (by rw [q8, q9]; omega)
  obtain ⟨r2, z1, z2, z3, z4, z5⟩ := sent_request e5 q2 hfeat settingsAction_ok o2
  obtain ⟨_, d2⟩ := C61_extension_request .REQUEST_EXTENSION_ENVIRONMENT_SETTINGS "" (by decide +kernel)
  obtain ⟨m2, d3, d4, d5⟩ := d2 []
  rw [List.append_nil] at d3
  refine ⟨_, out2, _, r2, m2, by rw [y1, o2], z1, z5, z2, z3.trans q7, by rw [z4, q9], d3, d5, ?_⟩
  intro s4 hev4 sets d hd hsets ch3 trailing3
  have hI3 : Inv env ({ s2 with ids := s2.ids + 2, pending := s2.pending.erase ((s.ids + 3 : Nat) : Int) } : Host σ) := by
    have := hI2.onInput ch2 (ack ++ trailing2); rw [y1] at this; exact this
  have p3 : ({ s2 with ids := s2.ids + 2, pending := s2.pending.erase ((s.ids + 3 : Nat) : Int) } : Host σ).pending.get?
      ((s.ids + 2 : Nat) : Int) = some .settings := by
    show (s2.pending.erase _).get? _ = _
    rw [Dict.get?_erase hI2.wf, if_neg (by omega), p2']
  have p4 := other_keeps hI3 p3 (fun raw h => h.2.1) hev4
  have i4 := init_keeps (fun raw h => h.1) hev4
  have i4' : s4.init = some response := by rw [i4, ← e3]; exact i2
  obtain ⟨_, resp, x1, x2, x3⟩ := response_frame_parses hsets trailing3
  have y3 := settings_step env ch3 x1 x2 x3 p4 i4' (settings_read hd s4.settings trailing3)
  -- the initialise response
  have hch : chosenId (some req.tcp_header.request_id) (s.ids + 2) = r := by
    unfold chosenId; rw [q3]; simp [q4.2.2]
  unfold IsInitResponse replyTo at e4
  have hsz := responseNew_size e4
  have hrf := response_facts e4 minCompat_range.1 minCompat_range.2 (by rw [hch]; exact q4.1) (by rw [hch]; exact q4.2.1)
    (by rw [hsz, q8]; omega)
  have hwr : (response.toOutboundMessage.writeTo ch3.ho).err = none :=
    (writeTo_parts ch3.ho response.toOutboundMessage (rt_header hrf.2.1).1).1
  have hrep := (response_on_wire ch3.ho e4 q2 hwr).2
  rw [hch, q5, q6] at hrep
  have hri := (rt_initResponse (m := ⟨env.name, env.interfaces⟩) hname hifs).2 []
  rw [List.append_nil] at hri
  have hfin := y3.trans (Prod.ext (y := (_, Except.ok (some (response.toOutboundMessage.writeTo ch3.ho).out))) rfl
    ((written_ok (w := response.toOutboundMessage.writeTo ch3.ho)).2 ⟨hwr, rfl⟩))
  exact ⟨_, _, _, hfin, hrep.context q7, hri, fun k => get_foldl_entries d hd.1 s4.settings k⟩

example := C44_sequence sampleExt sampleHost sampleHost_reachable sampleInitFrame_ok (by decide +kernel)
  (by decide +kernel) (by decide +kernel) (by decide +kernel) (by decide +kernel) (by decide +kernel) (by decide +kernel)
  sampleChoice [1, 2]

/-- With only the two requests of one initialisation outstanding, other traffic changes nothing about
them. -/
theorem other_pending {env : Ext σ H} {a b : Int} {s s' : Host σ} {p q : Pending} (hp : s.pending = [(a, p), (b, q)])
    (e : Evolves env (OtherTraffic a b) s s') : s'.pending = [(a, p), (b, q)] := by
  induction e with
  | refl => exact hp
  | @input s' ch raw e hraw ih =>
    rcases onInput_effect env ch s' raw with ⟨h1, _⟩ | ⟨resp, body, r, he, h1, _⟩ | ⟨req, body, r, ha, _⟩
    · rw [h1, ih]
    · have ha : resp.tcp_header.request_id ≠ a := fun e => hraw.2.1 ⟨resp, body, r, he, e⟩
      have hb : resp.tcp_header.request_id ≠ b := fun e => hraw.2.2 ⟨resp, body, r, he, e⟩
      rw [h1, Dict.erase_of_not_mem, ih]
      rw [ih]; simp [ha, hb]
    · exact (hraw.1 ⟨req, body, r, ha⟩).elim
  | other n d x _ hn ih => exact ih

/-- C44, nothing early: if nothing was outstanding before the initialisation, then exactly two ids are
outstanding after it - that of the registration just sent, `b`, and `a` (by `C44_sequence` the id of
the settings request to come) - and as long as neither is answered and no other initialisation
arrives, everything the host sends is an answer to the request it has just received. -/
theorem C44_not_early (env : Ext σ H) (s s1 : Host σ) (hs : Reachable env s) (hnone : s.pending = [])
    {raw0 out1 : Bytes} {ch0 : Choice} (hinit : Initialises raw0)
    (h0 : onInput env ch0 s raw0 = (s1, .ok (some out1))) :
    ∃ (a b : Int) (q1 : OutboundRequest) (body1 : Bytes), a ≠ b ∧ IsRequest out1 q1 body1 ∧
      q1.tcp_header.request_id = b ∧ (∀ k, Outstanding s1 k ↔ k = a ∨ k = b) ∧
    ∀ s2, Evolves env (OtherTraffic a b) s1 s2 → ∀ (ch : Choice) (raw : Bytes), OtherTraffic a b raw →
      ∀ s' out, onInput env ch s2 raw = (s', .ok (some out)) →
      ∃ req body, IsRequest raw req body ∧
        (req.tcp_header.request_id ≠ 0 → ∃ rbody, Answers out req rbody) := by
  have hI := hs.inv
  obtain ⟨req, body, hr, ha⟩ := hinit
  have e : onInput env ch0 s raw0 = handleInit env ch0 { s with ids := s.ids + 2 } req body := by
    rw [onInput_request hr]; unfold handleRequest; rw [if_pos ha]
  rw [e] at h0
  cases hb : InitializeExtensionRequest.readFrom body with
  | error e =>
    have : handleInit env ch0 { s with ids := s.ids + 2 } req body = ({ s with ids := s.ids + 2 }, .error e) := by
      unfold handleInit; rw [hb]
    rw [this] at h0; simp at h0
  | ok p =>
    obtain ⟨m, rest⟩ := p
    obtain ⟨response, sreq, rreq, i, hi, h1, h2, h3, h4⟩ := handleInit_ok env ch0 { s with ids := s.ids + 2 } req hb
    rw [h4] at h0
    simp only [Prod.mk.injEq] at h0
    obtain ⟨hs1, h5⟩ := h0
    obtain ⟨q', q1, q2, _⟩ := sent_request h3 (parsesAsRequest_ok hr.1).2.2 (parsesAsRequest_features hr.1)
      registerAction_ok h5
    have hge := idsAfter_ge (some req.tcp_header.request_id) (s.ids + 2)
    have hle : s.ids ≤ i := by simp only at hi; omega
    have hpend : s1.pending = [((i : Int), .settings), (((i + 1 : Nat) : Int), .registerRest sreq)] := by
      rw [← hs1]
      show (s.pending.set _ _).set _ _ = _
      rw [set_two hI hle, hnone, List.nil_append]
    refine ⟨(i : Int), ((i + 1 : Nat) : Int), q', _, by omega, q1, q2, ?_, ?_⟩
    · intro k
      unfold Outstanding
      rw [hpend]; simp
    · intro s2 hev ch raw hraw s' out hout
      have hp2 := other_pending hpend hev
      rcases onInput_cases env ch s2 raw with ⟨rq, bd, hq⟩ | ⟨resp, bd, hq⟩ | ⟨n, e, he⟩
      · refine ⟨rq, bd, hq, fun hid => ?_⟩
        have hna : rq.action ≠ "internal:discovery/extensions" := fun e => hraw.1 ⟨rq, bd, hq, e⟩
        rw [onInput_request hq] at hout
        obtain ⟨s3, _, _, _, _, ⟨e, he⟩ | ⟨w, hw⟩⟩ :=
          handleRequest_sends env ch { s2 with ids := s2.ids + 2 } rq bd hna
        · rw [he] at hout; simp at hout
        · rw [hw] at hout
          have := (sendReply_sent (parsesAsRequest_ok hq.1).2.2 hout).2
          have e : chosenId (some rq.tcp_header.request_id) s3.ids = rq.tcp_header.request_id := by
            unfold chosenId; simp [hid]
          rw [e] at this
          exact ⟨_, this⟩
      · exfalso
        rw [onInput_response hq] at hout
        cases he : resp.tcp_header.isError with
        | true => rw [he] at hout; simp at hout
        | false =>
          rw [he] at hout
          simp only [Bool.false_eq_true, if_false] at hout
          have hg : s2.pending.get? resp.tcp_header.request_id = none := by
            rw [Dict.get?_eq_none, hp2]
            simp only [List.map_cons, List.map_nil, List.mem_cons, List.not_mem_nil, or_false, not_or]
            exact ⟨fun e => hraw.2.1 ⟨resp, bd, hq, he, e⟩, fun e => hraw.2.2 ⟨resp, bd, hq, he, e⟩⟩
          unfold handleResponse at hout
          simp only [hg] at hout
          simp at hout
      · rw [he] at hout; simp at hout

example := C44_not_early sampleExt sampleHost _ sampleHost_reachable rfl
  ⟨_, _, sampleInit_isRequest, by decide +kernel⟩ sampleInit_sends

/-! ## C47 -/

theorem ReplyIs.unique {out : Bytes} {i i' : Int} {a a' c c' : Bool} {x x' : ThreadContext} {b b' : Bytes}
    (h : ReplyIs out i a c x b) (h' : ReplyIs out i' a' c' x' b') : i = i' ∧ b = b' := by
  obtain ⟨r, h1, _, h2, _⟩ := h
  obtain ⟨r', h1', _, h2', _⟩ := h'
  obtain ⟨rfl, rfl⟩ := h1.unique h1'
  exact ⟨h2.symm.trans h2', rfl⟩

/-- C47 is violated, always: if a second initialisation arrives while the first waits for its settings,
then the settings answer for the first makes the host send - if anything - the *second* initialise
response (id, flags and context of the second request); the first request is not answered. -/
theorem C47_violated (env : Ext σ H) (s : Host σ) (hs : Reachable env s) (hnone : s.pending = [])
    {raw1 raw2 : Bytes} {req1 req2 : OutboundRequest} {body1 body2 rest1 rest2 : Bytes}
    {m1 m2 : InitializeExtensionRequest}
    (hr1 : IsRequest raw1 req1 body1) (ha1 : req1.action = "internal:discovery/extensions")
    (hid1 : req1.tcp_header.request_id ≠ 0)
    (hm1 : InitializeExtensionRequest.readFrom body1 = .ok (m1, rest1))
    (hr2 : IsRequest raw2 req2 body2) (ha2 : req2.action = "internal:discovery/extensions")
    (hid2 : req2.tcp_header.request_id ≠ 0)
    (hm2 : InitializeExtensionRequest.readFrom body2 = .ok (m2, rest2)) (ch1 ch2 ch3 : Choice) :
    ∃ a b : Int, a ≠ b ∧ (∀ k, Outstanding (onInput env ch1 s raw1).1 k ↔ k = a ∨ k = b) ∧
    -- the first initialisation may have proceeded as far as waiting for its settings
    ∀ s2, Evolves env (fun raw => ¬ Responds raw a) (onInput env ch1 s raw1).1 s2 →
    ∀ s4, Evolves env (fun raw => ¬ Responds raw a ∧ ¬ Initialises raw) (onInput env ch2 s2 raw2).1 s4 →
    ∀ sets s5 out, Responds sets a → onInput env ch3 s4 sets = (s5, .ok (some out)) →
      (∃ body, Answers out req2 body) ∧
      (req1.tcp_header.request_id ≠ req2.tcp_header.request_id → ∀ body, ¬ Answers out req1 body) := by
  have hI := hs.inv
  obtain ⟨s1, response1, sreq1, rreq1, e1, e2, e3, e4, e5, e6, e7, e8, e9⟩ := init_step env ch1 hI hr1 ha1 hid1 hm1
  refine ⟨((s.ids + 2 : Nat) : Int), ((s.ids + 3 : Nat) : Int), by omega, ?_, ?_⟩
  · intro k
    unfold Outstanding
    rw [e1]
    simp only
    rw [e7, hnone]; simp
  · intro s2 hev2 s4 hev4 sets s5 out hsets hout
    have hI1 : Inv env s1 := by have := hI.onInput ch1 raw1; rw [e1] at this; exact this
    rw [e1] at hev2
    have p2 := other_keeps hI1 e8 (fun raw h => h) hev2
    have hI2 := hI1.evolves hev2
    obtain ⟨s3, response2, sreq2, rreq2, f1, f2, f3, f4, f5, f6, f7, f8, f9⟩ := init_step env ch2 hI2 hr2 ha2 hid2 hm2
    have hI3 : Inv env s3 := by have := hI2.onInput ch2 raw2; rw [f1] at this; exact this
    rw [f1] at hev4
    have hnr : ¬ Responds raw2 ((s.ids + 2 : Nat) : Int) := fun ⟨resp, b, h, _⟩ => hr2.not_response h
    have p3 : s3.pending.get? ((s.ids + 2 : Nat) : Int) = some .settings := by
      have := other_step (ch := ch2) hI2 p2 hnr
      rw [f1] at this; exact this
    have p4 := other_keeps hI3 p3 (fun raw h => h.1) hev4
    have i4 := init_keeps (fun raw h => h.2) hev4
    obtain ⟨resp, body, x1, x2, x3⟩ := hsets
    rw [onInput_response x1, x2] at hout
    simp only [Bool.false_eq_true, if_false] at hout
    unfold handleResponse at hout
    simp only [x3, p4] at hout
    unfold handleSettings at hout
    cases hsr : Settings.readFrom env.depth s4.settings body with
    | mk d x =>
      cases x with
      | error e => simp only [hsr] at hout; simp at hout
      | ok rest =>
        have hi4 : s4.init = some response2 := by rw [i4, f3]
        simp only [hsr, hi4, Prod.mk.injEq] at hout
        obtain ⟨w1, w2⟩ := written_ok.1 hout.2
        have w2' : (response2.toOutboundMessage.writeTo ch3.ho).out = out := w2
        have hrep := (response_on_wire ch3.ho f4 (parsesAsRequest_ok hr2.1).2.2 w1).2
        rw [w2'] at hrep
        have hch : chosenId (some req2.tcp_header.request_id) (s2.ids + 2) = req2.tcp_header.request_id := by
          unfold chosenId; simp [hid2]
        rw [hch] at hrep
        exact ⟨⟨_, hrep⟩, fun hne b hb => hne (ReplyIs.unique hb hrep).1⟩

/-! ## Cases that meet the hypotheses -/

/-- C44: all hypotheses of the sequence, for the sample extension and host. -/
example : Reachable sampleExt sampleHost ∧ TaskIdOK sampleInit.parent_task_id ∧ NodeOK sampleInit.source_node ∧
    ExtensionNodeOK sampleInit.extension ∧ StrOK sampleExt.name ∧ StrsOK sampleExt.interfaces ∧
    SettingsOK sampleExt.depth sampleSettings ∧
    sampleCtx.size + (writeStringArray ["f"]).out.length +
      (RegisterRestActionsRequest.new sampleExt.name sampleExt.registry.named_routes []).writeTo.out.length +
      (InitializeExtensionResponse.writeTo ⟨sampleExt.name, sampleExt.interfaces⟩).out.length < 2 ^ 31 - 1000 := by
  refine ⟨sampleHost_reachable, by decide +kernel, by decide +kernel, by decide +kernel, by decide +kernel,
    by decide +kernel, ?_, by decide +kernel⟩
  refine ⟨by decide +kernel, by decide, ?_⟩
  simp [GenericOK, GenericsOK, nesting, nestings, sampleSettings, sampleExt]
  decide +kernel

/-- C44, C47: the sample initialisation, executed: request 3 (registration) goes out, its positive
acknowledgement makes request 2 (settings) go out, and the settings make the initialisation response go out.
Nothing is outstanding at the end and the settings are stored. -/
example :
    let r1 := onInput sampleExt sampleChoice sampleHost sampleInitFrame
    let r2 := onInput sampleExt sampleChoice r1.1 (sampleAck true 3)
    let r3 := onInput sampleExt sampleChoice r2.1 (sampleSettingsFrame 2)
    r1.1.pending.map (·.1) = [2, 3] ∧ r2.1.pending.map (·.1) = [2] ∧ r3.1.pending = [] ∧
    (r1.2.toOption.join).isSome ∧ (r2.2.toOption.join).isSome ∧ (r3.2.toOption.join).isSome ∧
    r3.1.settings.map (·.1) = ["a", "b"] := by decide +kernel

/-- C44 (not early), C47: initialisation frames are taken for initialisations, and their bodies decode. -/
example : sampleHost.pending = [] ∧ Initialises sampleInitFrame ∧
    ∃ req body, IsRequest sampleInitFrame req body ∧ req.tcp_header.request_id = 11 ∧
      InitializeExtensionRequest.readFrom body = .ok (sampleInit, []) := by
  obtain ⟨_, _, req, q1, _, q3, _, _, _, _, _, _, q10⟩ := frame_parses sampleInitFrame_ok []
  rw [List.append_nil] at q1
  refine ⟨rfl, ⟨req, _, q1, q10⟩, req, _, q1, q3, ?_⟩
  exact (rt_initRequest (m := sampleInit) (by decide +kernel) (by decide +kernel) (by decide +kernel)).2 []

end Verif
