import Verif.Props.Server
import Verif.Props.Init
import Verif.Spec.Frames
/-!
# C42, C43, C47, C63, C66: what holds
-/

namespace Verif
open Py StreamInput StreamOutput

variable {σ H : Type}

/-- A well-formed request frame is the same request whatever follows it in the read. -/
theorem request_frame_any {frame : Bytes} {ctx : ThreadContext} {f : List String} {w : W} {a : String} {id : Int}
    {hs cp : Bool} (h : RequestFrame frame ctx f w a id hs cp) :
    ∃ req, (∀ trailing, IsRequest (frame ++ trailing) req (w.out ++ trailing)) ∧ req.action = a := by
  obtain ⟨ho, v, ids, ids', r, hnew, rfl, hctx, hf, ha, hv, hid, hsz⟩ := h
  have hch : chosenId (some id) ids = id := by unfold chosenId; simp [hid.2.2]
  obtain ⟨req, q1, q2, q3, q4, q5, q6, q7, _⟩ := request_on_wire_any ho hnew hctx hf ha hv.1 hv.2
    (by rw [hch]; exact hid.1) (by rw [hch]; exact hid.2.1) hsz
  exact ⟨req, q1, q7⟩

/-- C42, what holds: the first complete frame of a read is handled exactly as if it had arrived alone - same
answer or exception, same state afterwards - whatever follows it in the read.  (Missing: what follows is not
handled at all, see `C42_violated`.) -/
theorem C42_partial (env : Ext σ H) (ch : Choice) (s : Host σ) {frame : Bytes}
    (h : CompleteFrame env.depth s frame) (more : Bytes) :
    onInput env ch s (frame ++ more) = onInput env ch s frame := by
  suffices hs : ∃ x, ∀ more, onInput env ch s (frame ++ more) = x by
    obtain ⟨x, hx⟩ := hs
    have h0 := hx []
    rw [List.append_nil] at h0
    rw [hx, h0]
  cases h with
  | tcpHandshake h ht hv =>
    obtain ⟨req, q, ha⟩ := request_frame_any h
    refine ⟨sendReply ch { s with ids := s.ids + 2 } req (HandshakerResponse.writeTo ⟨Version.new Version.CURRENT⟩),
      fun more => ?_⟩
    rw [onInput_request (q more)]
    unfold handleRequest
    rw [if_neg (by rw [ha]; decide +kernel), if_neg (by rw [ha]; decide +kernel), if_pos ha]
    unfold handleTcpHandshake
    rename_i task v
    rw [(rt_handshakerRequest (m := ⟨task, some v⟩) ht rfl hv).2 more]
  | transportHandshake h ht =>
    obtain ⟨req, q, ha⟩ := request_frame_any h
    refine ⟨sendReply ch { s with ids := s.ids + 2 } req
      (ServiceHandshakeResponse.writeTo ⟨some (helloWorldNode ch), "", Version.new Version.CURRENT⟩), fun more => ?_⟩
    rw [onInput_request (q more)]
    unfold handleRequest
    rw [if_neg (by rw [ha]; decide +kernel), if_neg (by rw [ha]; decide +kernel), if_neg (by rw [ha]; decide +kernel),
      if_pos ha]
    unfold handleTransportHandshake
    rename_i task
    rw [(rt_serviceRequest (m := ⟨task⟩) ht).2 more]
  | rest h hr =>
    rename_i r
    obtain ⟨req, q, ha⟩ := request_frame_any h
    refine ⟨handleRest env ch { s with ids := s.ids + 2 } req (r.writeTo.out ++ []), fun more => ?_⟩
    rw [onInput_request (q more)]
    unfold handleRequest
    rw [if_neg (by rw [ha]; decide +kernel), if_pos ha]
    unfold handleRest
    rw [(rt_restRequest hr {}).2 more, (rt_restRequest hr {}).2 []]
  | init h h1 h2 h3 =>
    rename_i m
    obtain ⟨req, q, ha⟩ := request_frame_any h
    refine ⟨handleInit env ch { s with ids := s.ids + 2 } req (m.writeTo.out ++ []), fun more => ?_⟩
    rw [onInput_request (q more)]
    unfold handleRequest
    rw [if_pos ha]
    unfold handleInit
    rw [(rt_initRequest h1 h2 h3).2 more, (rt_initRequest h1 h2 h3).2 []]
  | unknown h hn =>
    obtain ⟨req, q, ha⟩ := request_frame_any h
    refine ⟨handleNotFound ch { s with ids := s.ids + 2 } req, fun more => ?_⟩
    rw [onInput_request (q more)]
    simp only [List.mem_cons, List.not_mem_nil, or_false, not_or] at hn
    unfold handleRequest
    rw [if_neg (by rw [ha]; exact hn.1), if_neg (by rw [ha]; exact hn.2.1), if_neg (by rw [ha]; exact hn.2.2.1),
      if_neg (by rw [ha]; exact hn.2.2.2)]
  | acknowledged h hs =>
    rename_i id a
    obtain ⟨_, resp, q, he, hid⟩ := response_frame_any h
    refine ⟨handleResponse env ch { s with ids := s.ids + 2 } resp ((AcknowledgedResponse.writeTo a).out ++ []),
      fun more => ?_⟩
    rw [onInput_response (q more), he]
    simp only [Bool.false_eq_true, if_false]
    unfold handleResponse
    simp only [hid]
    cases hp : s.pending.get? id with
    | none => rfl
    | some p =>
      cases p with
      | settings => exact (hs hp).elim
      | registerRest next =>
        simp only
        unfold handleRegistered
        rw [(rt_ack a).2 more, (rt_ack a).2 []]
  | settings h hd hs =>
    rename_i id d
    obtain ⟨_, resp, q, he, hid⟩ := response_frame_any h
    refine ⟨handleResponse env ch { s with ids := s.ids + 2 } resp ((Settings.writeTo d).out ++ []),
      fun more => ?_⟩
    rw [onInput_response (q more), he]
    simp only [Bool.false_eq_true, if_false]
    unfold handleResponse
    simp only [hid]
    cases hp : s.pending.get? id with
    | none => rfl
    | some p =>
      have hw := hs (by
        unfold Outstanding
        by_contra hn
        rw [← Dict.get?_eq_none, hp] at hn; simp at hn)
      unfold AwaitsSettings at hw
      rw [hp] at hw
      cases hw
      simp only
      unfold handleSettings
      rw [settings_read hd, settings_read hd]

example := C42_partial sampleExt sampleChoice sampleHost (.rest sampleRestFrame_ok sampleRest_ok) [1, 2, 3]

/-- C43, what holds: if every read begins with a complete frame, the answers on every connection and the
host's state afterwards depend only on those frames and the order in which they were read; it does not matter
how many bytes of the stream each read returned behind its frame, nor how sends, accepts and closes are
interleaved with the reads.  (Missing: a read that begins in the middle of a frame, or ends before its first frame
does, is misread, see `C43_violated`.) -/
theorem C43_partial (env : Ext σ H) (s : Host σ) {es es' : List (Event σ)} (h : SameFrames env s es es') :
    hostAfter env s es = hostAfter env s es' ∧ ∀ c, answersTo env c s es = answersTo env c s es' := by
  induction h with
  | nil => exact ⟨rfl, fun _ => rfl⟩
  | @recv s c ch frame more more' es es' h ht ih =>
    have e1 := C42_partial env ch s h more
    have e2 := C42_partial env ch s h more'
    refine ⟨?_, fun d => ?_⟩
    · unfold hostAfter; rw [e1, e2]; exact ih.1
    · unfold answersTo answer; rw [e1, e2, ih.2]
  | other ht ih =>
    refine ⟨?_, fun d => ?_⟩
    · unfold hostAfter; exact ih.1
    · unfold answersTo; exact ih.2 d
  | @left s e es es' he he' ht ih =>
    cases e with
    | recv c ch raw => exact (he _ _ _ rfl).elim
    | other n d x => exact (he' _ _ _ rfl).elim
    | _ => exact ih
  | @right s e es es' he he' ht ih =>
    cases e with
    | recv c ch raw => exact (he _ _ _ rfl).elim
    | other n d x => exact (he' _ _ _ rfl).elim
    | _ => exact ih

/-- C43, end to end: two possible runs of the server from the same start that read the same frames send the
same bytes on every connection that is idle at the end of both. -/
theorem C43_runs_partial (env : Ext σ H) {s : Host σ} {es es' : List (Event σ)} {S S' : Server σ}
    (h : (Server.start s).run env es = some S) (h' : (Server.start s).run env es' = some S')
    (hsame : SameFrames env s es es') (c : Nat) (hf : .sendFail c ∉ es) (hf' : .sendFail c ∉ es')
    (hw : Open S c) (hw' : Open S' c) (ht : toSend S c = []) (ht' : toSend S' c = []) :
    sentOn S c = sentOn S' c := by
  have h1 := (C50_replies env h c hf).1 hw
  have h2 := (C50_replies env h' c hf').1 hw'
  rw [ht, List.append_nil] at h1
  rw [ht', List.append_nil] at h2
  rw [h1, h2, (C43_partial env s hsame).2 c]

/-! ## C47 -/

/-- C47, what holds: of several initialisations in progress, the one that arrived last is answered with its own
id, flags and context - in whatever state the earlier ones are - once its registration and its settings request
are answered.  (Missing: the earlier ones are not, see `C47_violated`.) -/
theorem C47_partial (env : Ext σ H) (s s' : Host σ) (hs : Reachable env s) {raw1 : Bytes} (_h1 : Initialises raw1)
    (ch0 : Choice) (hev : Evolves env (fun _ => True) (onInput env ch0 s raw1).1 s')
    {frame : Bytes} {ctx : ThreadContext} {f : List String} {m : InitializeExtensionRequest} {r : Int} {hsk cp : Bool}
    (hframe : RequestFrame frame ctx f m.writeTo "internal:discovery/extensions" r hsk cp)
    (hm1 : TaskIdOK m.parent_task_id) (hm2 : NodeOK m.source_node) (hm3 : ExtensionNodeOK m.extension)
    (hname : StrOK env.name) (hifs : StrsOK env.interfaces) (hids : s'.ids + 4 < 2 ^ 63)
    (hroom : ctx.size + (writeStringArray f).out.length +
      (RegisterRestActionsRequest.new env.name env.registry.named_routes []).writeTo.out.length +
      (InitializeExtensionResponse.writeTo ⟨env.name, env.interfaces⟩).out.length < 2 ^ 31 - 1000)
    (ch1 ch2 ch3 : Choice) :
    ∃ (a b : Int) (s1 : Host σ), (onInput env ch1 s' frame).1 = s1 ∧ a ≠ b ∧
    ∀ s2, Evolves env (OtherTraffic a b) s1 s2 →
    ∀ ack, ResponseFrame ack (AcknowledgedResponse.writeTo ⟨true⟩) b →
    ∀ s4, Evolves env (OtherTraffic a b) (onInput env ch2 s2 ack).1 s4 →
    ∀ sets d, SettingsOK env.depth d → ResponseFrame sets (Settings.writeTo d) a →
    ∃ s5 out body, onInput env ch3 s4 sets = (s5, .ok (some out)) ∧ ReplyIs out r hsk cp ctx body ∧
      InitializeExtensionResponse.readFrom body = .ok (⟨env.name, env.interfaces⟩, []) := by
  have hs' : Reachable env s' := by
    obtain ⟨s0, h0, e0⟩ := hs
    have key : ∀ {x : Host σ}, Evolves env (fun _ => True) (onInput env ch0 s raw1).1 x →
        Evolves env (fun _ => True) s0 x := by
      intro x hx
      induction hx with
      | refl => exact .input _ _ e0 trivial
      | input ch raw _ hp ih => exact .input ch raw ih hp
      | other n d x _ hn ih => exact .other n d x ih hn
    exact ⟨s0, h0, key hev⟩
  obtain ⟨a, b, s1, out1, body1, q1, m1, hab, h1, _, _, _, _, _, _, _, _, _, hnext⟩ :=
    C44_sequence env s' hs' hframe hm1 hm2 hm3 hname hifs hids hroom ch1 []
  rw [List.append_nil] at h1
  refine ⟨a, b, s1, by rw [h1], hab, ?_⟩
  intro s2 hev2 ack hack s4 hev4 sets d hd hsets
  obtain ⟨s3, out2, body2, q2, m2, g1, _, _, _, _, _, _, _, hnext2⟩ := hnext s2 hev2 ack hack ch2 []
  rw [List.append_nil] at g1
  rw [g1] at hev4
  obtain ⟨s5, out3, body3, g3, g4, g5, _⟩ := hnext2 s4 hev4 sets d hd hsets ch3 []
  rw [List.append_nil] at g3
  exact ⟨s5, out3, body3, g3, g4, g5⟩

example := C47_partial sampleExt sampleHost _ sampleHost_reachable ⟨_, _, sampleInit_isRequest, by decide +kernel⟩
  sampleChoice (.input sampleChoice sampleRestFrame .refl trivial) sampleInitFrame_ok (by decide +kernel)
  (by decide +kernel) (by decide +kernel) (by decide +kernel) (by decide +kernel) (by decide +kernel) (by decide +kernel)
  sampleChoice sampleChoice sampleChoice

/-! ## C63 -/

/-- The handlers look at the request's header only when they build the reply. -/
theorem handleRequest_uniform (env : Ext σ H) (ch : Choice) (s : Host σ) (action : String) (body : Bytes)
    (ha : action ≠ "internal:discovery/extensions") :
    ∃ s1 : Host σ, (∃ e, ∀ req : OutboundRequest, req.action = action →
        handleRequest env ch s req body = (s1, .error e)) ∨
      ∃ w, ∀ req : OutboundRequest, req.action = action → handleRequest env ch s req body = sendReply ch s1 req w := by
  unfold handleRequest
  by_cases h2 : action = "internal:extensions/restexecuteonextensiontaction"
  · unfold handleRest
    cases hr : ExtensionRestRequest.readFrom {} body with
    | error e => exact ⟨s, .inl ⟨e, fun req h => by rw [h, if_neg ha, if_pos h2]⟩⟩
    | ok p =>
      obtain ⟨r, rest⟩ := p
      cases hm : r.method with
      | none => exact ⟨s, .inl ⟨.attribute, fun req h => by rw [h, if_neg ha, if_pos h2]; simp only [hm]⟩⟩
      | some m =>
        cases hh : env.registry.handle env.run (m.name ++ " " ++ r.path) s.ext r with
        | mk x res =>
          cases res with
          | error e =>
            exact ⟨{ s with ext := x }, .inl ⟨e, fun req h => by rw [h, if_neg ha, if_pos h2]; simp only [hm, hh]⟩⟩
          | ok resp =>
            exact ⟨{ s with ext := x }, .inr ⟨(executeResponse ch resp).writeTo, fun req h => by
              rw [h, if_neg ha, if_pos h2]; simp only [hm, hh]⟩⟩
  · by_cases h3 : action = "internal:tcp/handshake"
    · unfold handleTcpHandshake
      cases hr : HandshakerRequest.readFrom body with
      | error e => exact ⟨s, .inl ⟨e, fun req h => by rw [h, if_neg ha, if_neg h2, if_pos h3]⟩⟩
      | ok p => exact ⟨s, .inr ⟨_, fun req h => by rw [h, if_neg ha, if_neg h2, if_pos h3]⟩⟩
    · by_cases h4 : action = "internal:transport/handshake"
      · unfold handleTransportHandshake
        cases hr : ServiceHandshakeRequest.readFrom body with
        | error e => exact ⟨s, .inl ⟨e, fun req h => by rw [h, if_neg ha, if_neg h2, if_neg h3, if_pos h4]⟩⟩
        | ok p => exact ⟨s, .inr ⟨_, fun req h => by rw [h, if_neg ha, if_neg h2, if_neg h3, if_pos h4]⟩⟩
      · unfold handleNotFound
        exact ⟨s, .inr ⟨(notFoundResponse action).writeTo, fun req h => by
          rw [h, if_neg ha, if_neg h2, if_neg h3, if_neg h4]⟩⟩

/-- C63, what holds: but for the id, a request with id 0 is served like the same request with any other id: if
both are answered (in the same state), the answers have the same body, and each has the flags and the context of its
request. -/
theorem C63_partial (env : Ext σ H) (ch : Choice) (s s1 s2 : Host σ) {raw raw' body out out' : Bytes}
    {req req' : OutboundRequest} (hr : IsRequest raw req body) (hr' : IsRequest raw' req' body)
    (ha : req.action ≠ "internal:discovery/extensions") (hid : req.tcp_header.request_id = 0)
    (hsame : req'.action = req.action) (hid' : req'.tcp_header.request_id ≠ 0)
    (h : onInput env ch s raw = (s1, .ok (some out))) (h' : onInput env ch s raw' = (s2, .ok (some out'))) :
    ∃ i rbody, i ≠ 0 ∧ ReplyIs out i req.tcp_header.isHandshake req.tcp_header.isCompress req.ctx rbody ∧
      Answers out' req' rbody := by
  rw [onInput_request hr] at h
  rw [onInput_request hr'] at h'
  obtain ⟨sm, ⟨e, he⟩ | ⟨w, hw⟩⟩ := handleRequest_uniform env ch { s with ids := s.ids + 2 } req.action body ha
  · rw [he req rfl] at h; simp at h
  · obtain ⟨t, et, _, _, _, _⟩ := handleRequest_sends env ch { s with ids := s.ids + 2 } req body ha
    have hC := C63_violated env ch s s1 raw req body out hr ha hid (by rw [onInput_request hr]; exact h)
    obtain ⟨rb, hrb⟩ := hC
    rw [hw req rfl] at h
    rw [hw req' hsame] at h'
    have k1 := (sendReply_sent (parsesAsRequest_ok hr.1).2.2 h).2
    have k2 := (sendReply_sent (parsesAsRequest_ok hr'.1).2.2 h').2
    have e : chosenId (some req'.tcp_header.request_id) sm.ids = req'.tcp_header.request_id := by
      unfold chosenId; simp [hid']
    rw [e] at k2
    have e2 := (ReplyIs.unique hrb k1).1
    refine ⟨_, _, ?_, k1, k2⟩
    omega

example := C63_partial sampleExt sampleChoice sampleHost _ _ sampleZero_isRequest
  ((show requestBody sampleTcpFrame = requestBody sampleZeroFrame by decide +kernel) ▸ sampleTcp_isRequest :
    IsRequest sampleTcpFrame (requestIn sampleTcpFrame) (requestBody sampleZeroFrame))
  (by decide +kernel) (by decide +kernel) (by decide +kernel) (by decide +kernel) sampleZero_sends sampleTcp_sends

/-! ## C66 -/

/-- C66, what holds: after a stop request the next connection attempt ends the server at once, and so does the next
chunk on any idle connection (`C65_next_chunk_ends`).  (Missing: without such traffic it goes on, see
`C66_violated`.) -/
theorem C66_partial (env : Ext σ H) {S : Server σ} {c : Nat} (hs : S.serving = true) (ht : S.terminating = true)
    (hc : S.conns c = none) :
    ∃ S', S.step env (.accept c) = some S' ∧ S'.serving = false ∧
      ∀ d k, S'.conns d = some k → k.phase = .closed := by
  refine ⟨(S.setConn c {}).shutdown, ?_, ?_, ?_⟩
  · have : (S.setConn c {}).terminating = true := ht
    simp only [Server.step, hs, hc, and_self, if_true, this]
  · rfl
  · intro d k hk
    simp only [Server.shutdown, Option.map_eq_some_iff] at hk
    obtain ⟨_, _, rfl⟩ := hk
    rfl

example := C66_partial sampleExt (S := sampleStopping) (c := 1) (by decide +kernel) (by decide +kernel) (by decide +kernel)

/-! ## Cases that meet the hypotheses -/

/-- C42, C43: complete frames of five kinds, for the host that has just been sent the initialisation. -/
example : CompleteFrame sampleExt.depth sampleInited sampleInitFrame ∧
    CompleteFrame sampleExt.depth sampleInited sampleRestFrame ∧
    CompleteFrame sampleExt.depth sampleInited (sampleAck true 3) ∧
    CompleteFrame sampleExt.depth sampleInited (sampleSettingsFrame 2) := by
  refine ⟨.init sampleInitFrame_ok (by decide +kernel) (by decide +kernel) (by decide +kernel),
    .rest sampleRestFrame_ok (by constructor <;> decide +kernel), .acknowledged (sampleAck_ok true) ?_,
    .settings sampleSettingsFrame_ok ?_ ?_⟩
  · unfold AwaitsSettings; decide +kernel
  · refine ⟨by decide +kernel, by decide, ?_⟩
    simp only [GenericOK, GenericsOK, nesting, nestings, sampleSettings, sampleExt, List.mem_cons,
      List.not_mem_nil, or_false, forall_eq_or_imp, forall_eq]
    decide +kernel
  · intro _; unfold AwaitsSettings; decide +kernel

/-- C43: two runs that read the same frames with different bytes behind them, and what was sent. -/
example : SameFrames sampleExt sampleHost
    [.accept 0, .recv 0 sampleChoice (sampleInitFrame ++ []), .sent 0 144]
    [.accept 0, .recv 0 sampleChoice (sampleInitFrame ++ sampleRestFrame), .sent 0 1, .sent 0 143] := by
  refine .left nofun nofun (.right nofun nofun (.recv
    (.init sampleInitFrame_ok (by decide +kernel) (by decide +kernel) (by decide +kernel)) ?_))
  exact .left nofun nofun (.right nofun nofun (.right nofun nofun .nil))

example : ((Server.start sampleHost).run sampleExt [.accept 0, .recv 0 sampleChoice sampleInitFrame, .sent 0 144]).map
      (fun S => (sentOn S 0).length) = some 144 ∧
    ((Server.start sampleHost).run sampleExt
      [.accept 0, .recv 0 sampleChoice (sampleInitFrame ++ sampleRestFrame), .sent 0 1, .sent 0 143]).map
      (fun S => (sentOn S 0).length) = some 144 := by
  decide +kernel

/-- C47: the first initialisation is in progress, the host is reachable. -/
example : Reachable sampleExt sampleHost ∧ Initialises sampleInitFrame := by
  obtain ⟨_, _, req, q1, _, q3, _, _, _, _, _, _, q10⟩ := frame_parses sampleInitFrame_ok []
  rw [List.append_nil] at q1
  exact ⟨sampleHost_reachable, req, _, q1, q10⟩

/-- C63: the same frame with id 0 and with id 12 is answered in both cases. -/
example : (match (onInput sampleExt sampleChoice sampleHost
        (sampleFrame (HandshakerRequest.writeTo ⟨⟨"", none⟩, some (Version.new 2070099)⟩) "internal:tcp/handshake" 0)).2 with
      | .ok (some out) => out.length | _ => 0) = 64 ∧
    (match (onInput sampleExt sampleChoice sampleHost
        (sampleFrame (HandshakerRequest.writeTo ⟨⟨"", none⟩, some (Version.new 2070099)⟩) "internal:tcp/handshake" 12)).2 with
      | .ok (some out) => out.length | _ => 0) = 64 ∧
    (match TcpHeader.readFrom
        (sampleFrame (HandshakerRequest.writeTo ⟨⟨"", none⟩, some (Version.new 2070099)⟩) "internal:tcp/handshake" 0) with
      | .ok (h, _) => h.request_id | _ => 1) = 0 := by
  decide +kernel

/-- C66: a server that is asked to stop and has one idle connection. -/
example : ∃ S, (Server.start sampleHost).run sampleExt [.accept 0, .stop] = some S ∧ S.serving = true ∧
    S.terminating = true ∧ S.conns 1 = none :=
  ⟨_, rfl, rfl, rfl, rfl⟩

def segShort : Server Nat := ((Server.start sampleHost).run sampleExt
  [.accept 0, .recv 0 sampleChoice (sampleInitFrame ++ []), .sent 0 144]).get (by decide +kernel)
def segLong : Server Nat := ((Server.start sampleHost).run sampleExt
  [.accept 0, .recv 0 sampleChoice (sampleInitFrame ++ sampleRestFrame), .sent 0 1, .sent 0 143]).get (by decide +kernel)

theorem seg_same : SameFrames sampleExt sampleHost
    [.accept 0, .recv 0 sampleChoice (sampleInitFrame ++ []), .sent 0 144]
    [.accept 0, .recv 0 sampleChoice (sampleInitFrame ++ sampleRestFrame), .sent 0 1, .sent 0 143] := by
  refine .left nofun nofun (.right nofun nofun (.recv
    (.init sampleInitFrame_ok (by decide +kernel) (by decide +kernel) (by decide +kernel)) ?_))
  exact .left nofun nofun (.right nofun nofun (.right nofun nofun .nil))

example := C43_partial sampleExt sampleHost seg_same
example := C43_runs_partial sampleExt (s := sampleHost) (S := segShort) (S' := segLong) (Option.some_get _).symm
  (Option.some_get _).symm seg_same 0 nofun nofun
  (by unfold Open; exact ⟨_, show segShort.conns 0 = some ⟨.waiting, (segShort.conns 0).elim [] (·.wire)⟩ by decide +kernel, by decide⟩)
  (by unfold Open; exact ⟨_, show segLong.conns 0 = some ⟨.waiting, (segLong.conns 0).elim [] (·.wire)⟩ by decide +kernel, by decide⟩)
  (by decide +kernel) (by decide +kernel)

end Verif
