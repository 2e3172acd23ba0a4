import Verif.Props.Peers
import Verif.Props.Segments
/-!
# C75 and C63 are violated for every extension: answers that come too early, initialisations with id 0
-/

namespace Verif
open Py StreamInput StreamOutput Spec
variable {σ H : Type}

/-- C75 is violated by every extension, in every reachable state (not only by the sample, `C75_violated`): after an
initialise-extension request, answered with a registration request with id `b`, and any other traffic, a response with id
`b - 1` makes the host send the initialise response, although the registration was never acknowledged and the settings were
never asked for. -/
theorem C75_always_violated (env : Ext σ H) (s : Host σ) (hs : Reachable env s) {frame : Bytes} {ctx : ThreadContext}
    {f : List String} {m : InitializeExtensionRequest} {r : Int} {hsk cp : Bool}
    (hframe : RequestFrame frame ctx f m.writeTo "internal:discovery/extensions" r hsk cp)
    (hm1 : TaskIdOK m.parent_task_id) (hm2 : NodeOK m.source_node) (hm3 : ExtensionNodeOK m.extension)
    (hname : StrOK env.name) (hifs : StrsOK env.interfaces) (hids : s.ids + 4 < 2 ^ 63)
    (hroom : ctx.size + (writeStringArray f).out.length +
      (RegisterRestActionsRequest.new env.name env.registry.named_routes []).writeTo.out.length +
      (InitializeExtensionResponse.writeTo ⟨env.name, env.interfaces⟩).out.length < 2 ^ 31 - 1000)
    (ch1 ch3 : Choice) :
    ∃ (b : Int) (s1 : Host σ) (out1 body1 : Bytes) (q1 : OutboundRequest),
      onInput env ch1 s frame = (s1, .ok (some out1)) ∧ IsRequest out1 q1 body1 ∧
      q1.action = "internal:discovery/registerrestactions" ∧ q1.tcp_header.request_id = b ∧
    ∀ s2, Evolves env (OtherTraffic (b - 1) b) s1 s2 →
    ∀ early d, SettingsOK env.depth d → ResponseFrame early (Settings.writeTo d) (b - 1) →
    ∃ s3 out body, onInput env ch3 s2 early = (s3, .ok (some out)) ∧ ReplyIs out r hsk cp ctx body ∧
      InitializeExtensionResponse.readFrom body = .ok (⟨env.name, env.interfaces⟩, []) := by
  have hI := hs.inv
  obtain ⟨a, b, s1', out1, body1, q1, m1, hab, h1, h2, h3, h4, _⟩ :=
    C44_sequence env s hs hframe hm1 hm2 hm3 hname hifs hids hroom ch1 []
  obtain ⟨hw, hfit, req, q1', q2, q3, q4, q5, q6, q7, q8, q9, q10⟩ := frame_parses hframe []
  have hread := (rt_initRequest hm1 hm2 hm3).2 []
  obtain ⟨s1, response, sreq, rreq, e1, e2, e3, e4, e5, e6, e7, e8, e9⟩ :=
    init_step env ch1 hI q1' q10 (by rw [q3]; exact q4.2.2) hread
  have hs1 : s1' = s1 := by rw [h1] at e1; exact (Prod.mk.inj e1).1
  subst hs1
  have hb : b = ((s.ids + 3 : Nat) : Int) := by
    rw [h1] at e1
    have o1 := (Prod.mk.inj e1).2.symm
    obtain ⟨r1, w1, w2, _⟩ := sent_request e6 q2 (parsesAsRequest_features q1'.1) registerAction_ok o1
    have := (IsRequest.unique w1 h2).1
    rw [← h4, ← this, w2]
  rw [List.append_nil] at h1
  refine ⟨b, s1', out1, body1, q1, h1, h2, h3, h4, ?_⟩
  intro s2 hev early d hd hearly
  have hba : b - 1 = ((s.ids + 2 : Nat) : Int) := by rw [hb]; push_cast; omega
  rw [hba] at hev hearly
  have hI1 : Inv env s1' := by have := hI.onInput ch1 frame; rw [h1] at this; exact this
  have p2 := other_keeps hI1 e8 (fun raw h => h.2.1) hev
  have i2 := init_keeps (fun raw h => h.1) hev
  have i2' : s2.init = some response := by rw [i2, e3]
  obtain ⟨_, resp, x1, x2, x3⟩ := response_frame_parses hearly []
  have y3 := settings_step env ch3 x1 x2 x3 p2 i2' (settings_read hd s2.settings [])
  have hch : chosenId (some req.tcp_header.request_id) (s.ids + 2) = r := by
    unfold chosenId; rw [q3]; simp [q4.2.2]
  unfold IsInitResponse replyTo at e4
  have hsz := responseNew_size e4
  have hrf := response_facts e4 minCompat_range.1 minCompat_range.2 (by rw [hch]; exact q4.1) (by rw [hch]; exact q4.2.1)
    (by rw [hsz, q8]; omega)
  have hwr : (response.toOutboundMessage.writeTo ch3.ho).err = none :=
    (writeTo_parts ch3.ho response.toOutboundMessage (rt_header hrf.2.1).1).1
  have hrep := (response_on_wire ch3.ho e4 q2 hwr).2
  rw [hch, q5, q6] at hrep
  have hri := (rt_initResponse (m := ⟨env.name, env.interfaces⟩) hname hifs).2 []
  rw [List.append_nil] at hri y3
  have hfin := y3.trans (Prod.ext (y := (_, Except.ok (some (response.toOutboundMessage.writeTo ch3.ho).out))) rfl
    ((written_ok (w := response.toOutboundMessage.writeTo ch3.ho)).2 ⟨hwr, rfl⟩))
  exact ⟨_, _, _, hfin, hrep.context q7, hri⟩

example := C75_always_violated sampleExt sampleHost sampleHost_reachable sampleInitFrame_ok (by decide +kernel)
  (by decide +kernel) (by decide +kernel) (by decide +kernel) (by decide +kernel) (by decide +kernel) (by decide +kernel)
  sampleChoice sampleChoice

/-- C63 is violated by initialisations, too: whenever an initialise-extension request with id 0 is finished - with no other
initialisation in between - by the host sending a response on an answer it got, that response carries an id other than 0. -/
theorem C63_init_violated (env : Ext σ H) (s : Host σ) (hs : Reachable env s) {raw1 : Bytes} {req1 : OutboundRequest}
    {body1 rest1 : Bytes} {m1 : InitializeExtensionRequest} (hr1 : IsRequest raw1 req1 body1)
    (ha1 : req1.action = "internal:discovery/extensions") (hid1 : req1.tcp_header.request_id = 0)
    (hm1 : InitializeExtensionRequest.readFrom body1 = .ok (m1, rest1)) (ch1 ch2 : Choice)
    (s2 : Host σ) (hev : Evolves env (fun raw => ¬ Initialises raw) (onInput env ch1 s raw1).1 s2)
    {answer out rbody : Bytes} {a : Int} {r : OutboundResponse} {s3 : Host σ} (hans : Responds answer a)
    (hout : onInput env ch2 s2 answer = (s3, .ok (some out))) (hres : IsResponse out r rbody) :
    ∃ i body, i ≠ 0 ∧ i = s.ids + 2 ∧ ReplyIs out i req1.tcp_header.isHandshake req1.tcp_header.isCompress req1.ctx body := by
  have hI := hs.inv
  obtain ⟨response, sreq, rreq, i, hi, h1, h2, h3, h4⟩ := handleInit_ok env ch1 { s with ids := s.ids + 2 } req1 hm1
  have e1 : onInput env ch1 s raw1 = handleInit env ch1 { s with ids := s.ids + 2 } req1 body1 := by
    rw [onInput_request hr1]
    unfold handleRequest
    rw [if_pos ha1]
  have e0 := e1.trans h4
  have hinit : s2.init = some response := by
    rw [init_keeps (fun raw h => h) hev, e0]
  have hI2 : Inv env s2 := (hI.onInput ch1 raw1).evolves hev
  obtain ⟨resp, body, x1, x2, x3⟩ := hans
  have hp := settings_of_response hI2 x1 x2 (by rw [hout]) hres
  rw [onInput_response x1, x2] at hout
  simp only [Bool.false_eq_true, if_false] at hout
  unfold handleResponse at hout
  simp only [hp] at hout
  unfold handleSettings at hout
  cases hsr : Settings.readFrom env.depth s2.settings body with
  | mk d x =>
    cases x with
    | error e => simp only [hsr] at hout; simp at hout
    | ok rest =>
      simp only [hsr, hinit, Prod.mk.injEq] at hout
      obtain ⟨w1, w2⟩ := written_ok.1 hout.2
      have w2' : (response.toOutboundMessage.writeTo ch2.ho).out = out := w2
      have hrep := (response_on_wire ch2.ho h1 (parsesAsRequest_ok hr1.1).2.2 w1).2
      rw [w2'] at hrep
      have hch : chosenId (some req1.tcp_header.request_id) (s.ids + 2) = ((s.ids + 2 : Nat) : Int) := by
        unfold chosenId; simp [hid1]
      rw [hch] at hrep
      exact ⟨_, _, by omega, by push_cast; rfl, hrep⟩

/-- C63: an initialise-extension frame with id 0 (registration 4, settings request 3) is finished with a response with id 2. -/
example :
    let frame := sampleFrame sampleInit.writeTo "internal:discovery/extensions" 0
    let r1 := onInput sampleExt sampleChoice sampleHost frame
    let r2 := onInput sampleExt sampleChoice r1.1 (sampleAck true 4)
    let r3 := onInput sampleExt sampleChoice r2.1 (sampleSettingsFrame 3)
    (match TcpHeader.readFrom frame with | .ok (h, _) => h.request_id | _ => 1) = 0 ∧
    (match r3.2 with
      | .ok (some out) => (match TcpHeader.readFrom out with | .ok (h, _) => h.request_id | _ => 0)
      | _ => 0) = 2 := by decide +kernel

/-- C75: the sample initialisation, and at once the settings, which nobody asked for: the initialise response goes out. -/
example :
    let r1 := onInput sampleExt sampleChoice sampleHost sampleInitFrame
    let r2 := onInput sampleExt sampleChoice r1.1 (sampleSettingsFrame 2)
    (match r2.2 with
      | .ok (some out) => (match TcpHeader.readFrom out with | .ok (h, _) => h.request_id | _ => 0)
      | _ => 0) = 11 := by decide +kernel

end Verif
