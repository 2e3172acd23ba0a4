import Verif.Props.Liveness
import Verif.Props.Init
/-!
# C107: an initialisation on a running server
-/

namespace Verif
open Py StreamInput StreamOutput

variable {σ H : Type}

/-- One event is one step of the host's evolution, if what is read satisfies `P`. -/
theorem step_evolves_of {env : Ext σ H} {S S' : Server σ} {e : Event σ} (h : S.step env e = some S') {P : Bytes → Prop}
    {s0 : Host σ} (h0 : Evolves env P s0 S.host) (hp : ∀ c ch raw, e = .recv c ch raw → P raw) :
    Evolves env P s0 S'.host := by
  rw [step_host h]
  cases e with
  | recv c ch raw => exact .input ch raw h0 (hp c ch raw rfl)
  | other n d x =>
    simp only [Server.step] at h
    split at h
    · next hn => exact .other n d x h0 hn
    · simp at h
  | _ => exact h0

/-- The host evolves along an infinite run. -/
theorem runs_evolves {env : Ext σ H} {S : Nat → Server σ} {ev : Nat → Event σ} (hrun : Runs env S ev) {P : Bytes → Prop}
    {i j : Nat} (hij : i ≤ j) (hp : ∀ k c ch raw, i ≤ k → k < j → ev k = .recv c ch raw → P raw) :
    Evolves env P (S i).host (S j).host := by
  obtain ⟨d, rfl⟩ := Nat.exists_eq_add_of_le hij
  clear hij
  induction d with
  | zero => exact .refl
  | succ d ih =>
    exact step_evolves_of (hrun (i + d)) (ih fun k c ch raw h1 h2 => hp k c ch raw h1 (by omega))
      fun c ch raw he => hp (i + d) c ch raw (by omega) (by omega) he

/-- What a read does to the host. -/
theorem runs_recv {env : Ext σ H} {S : Nat → Server σ} {ev : Nat → Event σ} (hrun : Runs env S ev) {i c : Nat}
    {ch : Choice} {raw : Bytes} (hev : ev i = .recv c ch raw) : (S (i + 1)).host = (onInput env ch (S i).host raw).1 := by
  have h := step_host (hrun i)
  rw [hev] at h
  exact h

/-- **C107**.  On a running server, however many other connections there are and whatever happens on them: an
initialise-extension request read on a connection is followed by a complete registration request sent on that connection;
once the node's positive acknowledgement is read, by a complete environment-settings request; and once the settings are
read, they are added to the process's settings and the complete initialise response follows, with the id, marks and context
of the request.  In between anything may be
received on any connection, except another initialisation or a response with one of the two ids. -/
theorem C107_conversation (env : Ext σ H) {S : Nat → Server σ} {ev : Nat → Event σ} (hrun : Runs env S ev) {c : Nat}
    (hfair : TakesBytes S ev c) (hok : NeverFails ev c) (hs : ∀ i, (S i).serving = true) (h0 : Reachable env (S 0).host)
    {frame : Bytes} {ctx : ThreadContext} {f : List String} {m : InitializeExtensionRequest} {r : Int} {hsk cp : Bool}
    (hframe : RequestFrame frame ctx f m.writeTo "internal:discovery/extensions" r hsk cp)
    (hm1 : TaskIdOK m.parent_task_id) (hm2 : NodeOK m.source_node) (hm3 : ExtensionNodeOK m.extension)
    (hname : StrOK env.name) (hifs : StrsOK env.interfaces)
    (hroom : ctx.size + (writeStringArray f).out.length +
      (RegisterRestActionsRequest.new env.name env.registry.named_routes []).writeTo.out.length +
      (InitializeExtensionResponse.writeTo ⟨env.name, env.interfaces⟩).out.length < 2 ^ 31 - 1000)
    {i : Nat} {ch1 : Choice} {trailing1 : Bytes} (hev1 : ev i = .recv c ch1 (frame ++ trailing1))
    (hids : (S i).host.ids + 4 < 2 ^ 63) :
    ∃ (a b : Int) (j1 : Nat) (out1 body1 : Bytes) (q1 : OutboundRequest) (m1 : RegisterRestActionsRequest),
      i < j1 ∧ sentOn (S j1) c = sentOn (S i) c ++ out1 ∧ toSend (S j1) c = [] ∧
      a ≠ b ∧ IsRequest out1 q1 body1 ∧
      q1.action = "internal:discovery/registerrestactions" ∧ q1.tcp_header.request_id = b ∧ SameContext q1.ctx ctx ∧
      RegisterRestActionsRequest.readFrom body1 = .ok (m1, []) ∧ m1.rra.identity = some { uniqueId := env.name } ∧
      m1.rra.restActions = env.registry.named_routes ∧
    ∀ (k1 : Nat) (ch2 : Choice) (ack trailing2 : Bytes), i < k1 → ev k1 = .recv c ch2 (ack ++ trailing2) →
      ResponseFrame ack (AcknowledgedResponse.writeTo ⟨true⟩) b →
      (∀ k d ch raw, i < k → k < k1 → ev k = .recv d ch raw → OtherTraffic a b raw) →
    ∃ (j2 : Nat) (out2 body2 : Bytes) (q2 : OutboundRequest) (m2 : ExtensionTransportRequest),
      k1 < j2 ∧ sentOn (S j2) c = sentOn (S k1) c ++ out2 ∧ toSend (S j2) c = [] ∧ IsRequest out2 q2 body2 ∧
      q2.action = "internal:discovery/enviornmentsettings" ∧ q2.tcp_header.request_id = a ∧ SameContext q2.ctx ctx ∧
      ExtensionTransportRequest.readFrom body2 = .ok (m2, []) ∧ m2.er.requestType = 4 ∧
    ∀ (k2 : Nat) (ch3 : Choice) (sets trailing3 : Bytes) (d : Dict String PyVal), k1 < k2 →
      ev k2 = .recv c ch3 (sets ++ trailing3) → SettingsOK env.depth d → ResponseFrame sets (Settings.writeTo d) a →
      (∀ k d ch raw, k1 < k → k < k2 → ev k = .recv d ch raw → OtherTraffic a b raw) →
    ∃ (j3 : Nat) (out3 body3 : Bytes),
      k2 < j3 ∧ sentOn (S j3) c = sentOn (S k2) c ++ out3 ∧ toSend (S j3) c = [] ∧
      ReplyIs out3 r hsk cp ctx body3 ∧
      InitializeExtensionResponse.readFrom body3 = .ok (⟨env.name, env.interfaces⟩, []) ∧
      ∀ key, (S (k2 + 1)).host.settings.get? key = (d.get? key).or ((S k2).host.settings.get? key) := by
  have hreach : Reachable env (S i).host := by
    obtain ⟨s0, hs0, he⟩ := h0
    refine ⟨s0, hs0, ?_⟩
    exact Evolves.trans he (runs_evolves hrun (Nat.zero_le i) fun _ _ _ _ _ _ _ => trivial)
  obtain ⟨a, b, s1, out1, body1, q1, m1, hab, o1, o2, o3, o4, o5, _, o7, o8, o9, _, hnext⟩ :=
    C44_sequence env (S i).host hreach hframe hm1 hm2 hm3 hname hifs hids hroom ch1 trailing1
  have e1 : (S (i + 1)).host = s1 := by rw [runs_recv hrun hev1, o1]
  obtain ⟨j1, hj1, w1, t1⟩ := C106_answered env hrun hfair hok hs hev1 (by rw [o1])
  refine ⟨a, b, j1, out1, body1, q1, m1, hj1, w1, t1, hab, o2, o3, o4, o5, o7, o8, o9, ?_⟩
  intro k1 ch2 ack trailing2 hk1 hev2 hack hother1
  have ev1 : Evolves env (OtherTraffic a b) s1 (S k1).host := by
    rw [← e1]
    exact runs_evolves hrun (by omega) fun k d ch raw h1 h2 he => hother1 k d ch raw (by omega) h2 he
  obtain ⟨s3, out2, body2, q2, m2, p1, p2, p3, p4, p5, _, p7, p8, hnext2⟩ := hnext (S k1).host ev1 ack hack ch2 trailing2
  have e2 : (S (k1 + 1)).host = s3 := by rw [runs_recv hrun hev2, p1]
  obtain ⟨j2, hj2, w2, t2⟩ := C106_answered env hrun hfair hok hs hev2 (by rw [p1])
  refine ⟨j2, out2, body2, q2, m2, hj2, w2, t2, p2, p3, p4, p5, p7, p8, ?_⟩
  intro k2 ch3 sets trailing3 d hk2 hev3 hd hsets hother2
  have ev2 : Evolves env (OtherTraffic a b) s3 (S k2).host := by
    rw [← e2]
    exact runs_evolves hrun (by omega) fun k d ch raw h1 h2 he => hother2 k d ch raw (by omega) h2 he
  obtain ⟨s5, out3, body3, r1, r2, r3, r4⟩ := hnext2 (S k2).host ev2 sets d hd hsets ch3 trailing3
  obtain ⟨j3, hj3, w3, t3⟩ := C106_answered env hrun hfair hok hs hev3 (by rw [r1])
  refine ⟨j3, out3, body3, hj3, w3, t3, r2, r3, ?_⟩
  intro key
  rw [runs_recv hrun hev3, r1]
  exact r4 key

/-! ## A case that meets the hypotheses -/

/-- A conversation without end on connection 0, with a handshake of another peer in between. -/
def talkEvents : Nat → Event Nat
  | 0 => .accept 0
  | 1 => .accept 1
  | 2 => .recv 0 sampleChoice sampleInitFrame
  | 3 => .sent 0 100
  | 4 => .recv 1 sampleChoice sampleTcpFrame
  | 5 => .sent 0 44
  | 6 => .recv 0 sampleChoice (sampleAck true 3)
  | 7 => .sent 0 108
  | 8 => .recv 0 sampleChoice (sampleSettingsFrame 2)
  | 9 => .sent 0 20
  | 10 => .sent 0 79
  | _ => .other 20 [] 0

/-- The first states of that run. -/
def talkFirst : Nat → Server Nat
  | 0 => Server.start sampleHost
  | i + 1 => ((talkFirst i).step sampleExt (talkEvents i)).getD (Server.start sampleHost)

/-- The states of that run. -/
def talkStates (i : Nat) : Server Nat :=
  if i ≤ 11 then talkFirst i
  else { talkFirst 11 with host := { (talkFirst 11).host with ids := 20, settings := [], ext := 0 } }

theorem talk_runs : Runs sampleExt talkStates talkEvents := by
  have first : ∀ i < 11, (talkFirst i).step sampleExt (talkEvents i) = some (talkFirst (i + 1)) := by
    intro i hi
    have key : ((talkFirst i).step sampleExt (talkEvents i)).isSome = true := by
      revert i
      decide +kernel
    obtain ⟨T, hT⟩ := Option.isSome_iff_exists.1 key
    rw [hT, talkFirst, hT]; rfl
  have h11 : (talkFirst 11).host.ids ≤ 20 := by decide +kernel
  intro i
  rcases Nat.lt_trichotomy i 11 with h | rfl | h
  · unfold talkStates
    rw [if_pos (by omega), if_pos (by omega)]
    exact first i h
  · unfold talkStates
    rw [if_pos (by omega), if_neg (by omega)]
    show (talkFirst 11).step sampleExt (.other 20 [] 0) = _
    simp only [Server.step]
    rw [if_pos h11]
  · unfold talkStates
    rw [if_neg (show ¬ i ≤ 11 by omega), if_neg (show ¬ i + 1 ≤ 11 by omega)]
    have : talkEvents i = .other 20 [] 0 := by
      obtain ⟨d, rfl⟩ := Nat.exists_eq_add_of_lt h
      show talkEvents (11 + d + 1) = _
      rw [show 11 + d + 1 = d + 1 + 11 by omega]
      rfl
    rw [this]
    simp only [Server.step]
    rw [if_pos (Nat.le_refl 20)]

/-- Connection 0 from the last send on. -/
theorem talk_after (i : Nat) (h : 11 ≤ i) : (talkStates i).conns 0 = (talkFirst 11).conns 0 := by
  unfold talkStates
  by_cases h' : i ≤ 11
  · have : i = 11 := by omega
    subst this
    rw [if_pos (Nat.le_refl 11)]
  · rw [if_neg h']

theorem talk_takes : TakesBytes talkStates talkEvents 0 := by
  intro i rest wire h
  have e : i ≤ 3 ∨ i = 4 ∨ i = 5 ∨ i = 6 ∨ i = 7 ∨ i = 8 ∨ i = 9 ∨ i = 10 ∨ 11 ≤ i := by omega
  rcases e with hi | rfl | rfl | rfl | rfl | rfl | rfl | rfl | hi
  · exact ⟨3, hi, _, rfl, .inr (by decide)⟩
  · exact ⟨5, by decide, _, rfl, .inr (by decide)⟩
  · exact ⟨5, by decide, _, rfl, .inr (by decide)⟩
  · exact ⟨7, by decide, _, rfl, .inr (by decide)⟩
  · exact ⟨7, by decide, _, rfl, .inr (by decide)⟩
  · exact ⟨9, by decide, _, rfl, .inr (by decide)⟩
  · exact ⟨9, by decide, _, rfl, .inr (by decide)⟩
  · exact ⟨10, by decide, _, rfl, .inr (by decide)⟩
  · exfalso
    rw [talk_after i hi] at h
    have : ((talkFirst 11).conns 0).map (·.phase) = some .waiting := by decide +kernel
    rw [h] at this
    cases this

theorem talk_never_fails : NeverFails talkEvents 0 := by
  intro i
  by_cases h : i < 11
  · have key : ∀ i < 11, (match talkEvents i with | .sendFail _ => false | _ => true) = true := by decide +kernel
    intro e
    have := key i h
    rw [e] at this
    cases this
  · obtain ⟨d, rfl⟩ := Nat.exists_eq_add_of_le (Nat.le_of_not_lt h)
    rw [Nat.add_comm]
    exact fun h => by cases h

theorem talk_serving (i : Nat) : (talkStates i).serving = true := by
  have key : ∀ i ≤ 11, (talkFirst i).serving = true := by decide +kernel
  unfold talkStates
  by_cases h : i ≤ 11
  · rw [if_pos h]; exact key i h
  · rw [if_neg h]
    have := key 11 (Nat.le_refl 11)
    generalize talkFirst 11 = L at this ⊢
    exact this

/-- C107 for this run: the initialise request is its third event. -/
example := C107_conversation sampleExt talk_runs talk_takes talk_never_fails talk_serving (i := 2)
  (show Reachable sampleExt (talkStates 0).host from sampleHost_reachable) sampleInitFrame_ok (by decide +kernel)
  (by decide +kernel) (by decide +kernel) (by decide +kernel) (by decide +kernel) (by decide +kernel)
  (ch1 := sampleChoice) (trailing1 := []) (by rw [List.append_nil]; rfl) (by decide +kernel)

/-- The answers of the node in this run, and the traffic between them, are as the theorem asks (with `a = 2`, `b = 3`). -/
example : talkEvents 6 = .recv 0 sampleChoice (sampleAck true 3 ++ []) ∧
    ResponseFrame (sampleAck true 3) (AcknowledgedResponse.writeTo ⟨true⟩) 3 ∧
    talkEvents 8 = .recv 0 sampleChoice (sampleSettingsFrame 2 ++ []) ∧
    ResponseFrame (sampleSettingsFrame 2) (Settings.writeTo sampleSettings) 2 ∧ OtherTraffic 2 3 sampleTcpFrame := by
  refine ⟨by rw [List.append_nil]; rfl, sampleAck_ok true, by rw [List.append_nil]; rfl, sampleSettingsFrame_ok, ?_⟩
  refine ⟨?_, ?_, ?_⟩
  · rintro ⟨req, body, h1, h2⟩
    have := (IsRequest.unique h1 sampleTcp_isRequest).1
    rw [this] at h2
    revert h2
    decide +kernel
  · rintro ⟨resp, body, h1, _⟩
    exact sampleTcp_isRequest.not_response h1
  · rintro ⟨resp, body, h1, _⟩
    exact sampleTcp_isRequest.not_response h1

/-- And so it ends: all three frames have been sent whole. -/
example : ((talkFirst 11).conns 0).map (fun k => (k.phase, k.wire.length)) = some (.waiting, 144 + 108 + 99) := by
  decide +kernel

end Verif
