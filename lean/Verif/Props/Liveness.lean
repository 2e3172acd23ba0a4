import Verif.Props.Lifecycle
import Verif.Props.Requests
import Verif.Spec.Liveness
/-!
# C106: every answer is delivered
-/

namespace Verif
open Py StreamInput StreamOutput

variable {σ H : Type}

theorem delivered_aux {env : Ext σ H} {S : Nat → Server σ} {ev : Nat → Event σ} (hrun : Runs env S ev) {c : Nat}
    (hfair : TakesBytes S ev c) (hok : NeverFails ev c) (hs : ∀ i, (S i).serving = true) :
    ∀ (k : Nat) (rest : Bytes), rest.length = k → ∀ (i : Nat) (wire : Bytes), (S i).conns c = some ⟨.sending rest, wire⟩ →
      ∃ j > i, (S j).conns c = some ⟨if (S (j - 1)).terminating then .closed else .waiting, wire ++ rest⟩ := by
  intro k
  induction k using Nat.strong_induction_on with
  | _ k ih =>
    intro rest hk i wire hc
    obtain ⟨j, hj, n, hev, hn⟩ := hfair i rest wire hc
    obtain ⟨d, rfl⟩ := Nat.exists_eq_add_of_le hj
    clear hj
    induction d generalizing i with
    | zero =>
      rw [Nat.add_zero] at hev
      rcases sending_step hc (hrun i) with ⟨h1, _⟩ | ⟨h1, _⟩ | h1 | ⟨m, h1, hm, h2⟩ | ⟨h1, h2⟩
      · rw [hev] at h1; exact absurd rfl h1
      · rw [hev] at h1; exact absurd rfl h1
      · exact absurd h1 (hok i)
      · rw [hev] at h1
        simp only [Event.sent.injEq, true_and] at h1
        subst h1
        have hpos : 0 < n := by
          rcases hn with rfl | hn
          · simp at hm
          · exact hn
        obtain ⟨j, hj, e⟩ := ih (rest.length - n) (by omega) (rest.drop n) (by simp) (i + 1) _ h2
        exact ⟨j, by omega, by rw [e, List.append_assoc, List.take_append_drop]⟩
      · exact ⟨i + 1, by omega, h2⟩
    | succ d ihd =>
      have hev' : ev (i + 1 + d) = .sent c n := by rw [← hev]; congr 1; omega
      rcases sending_step hc (hrun i) with ⟨h1, h2⟩ | ⟨_, _, h3⟩ | h1 | ⟨m, h1, hm, h2⟩ | ⟨h1, h2⟩
      · obtain ⟨j, hj, e⟩ := ihd (i + 1) h2 hev'
        exact ⟨j, by omega, e⟩
      · rw [hs] at h3; cases h3
      · exact absurd h1 (hok i)
      · by_cases hpos : 0 < m
        · obtain ⟨j, hj, e⟩ := ih (rest.length - m) (by omega) (rest.drop m) (by simp) (i + 1) _ h2
          exact ⟨j, by omega, by rw [e, List.append_assoc, List.take_append_drop]⟩
        · have : m = 0 := by omega
          subst this
          simp only [List.drop_zero, List.take_zero, List.append_nil] at h2
          obtain ⟨j, hj, e⟩ := ihd (i + 1) h2 hev'
          exact ⟨j, by omega, e⟩
      · exact ⟨i + 1, by omega, h2⟩

/-- **C106** (delivered).  In every infinite run in which the operating system goes on taking bytes, no send on the
connection fails and the accept loop runs: an answer that is being sent is, at some later time, sent to its last byte, and
after it the handler waits for bytes again, or has closed the connection because a stop was asked for. -/
theorem C106_delivered (env : Ext σ H) {S : Nat → Server σ} {ev : Nat → Event σ} (hrun : Runs env S ev) {c : Nat}
    (hfair : TakesBytes S ev c) (hok : NeverFails ev c) (hs : ∀ i, (S i).serving = true) {i : Nat} {rest wire : Bytes}
    (hc : (S i).conns c = some ⟨.sending rest, wire⟩) :
    ∃ j > i, (S j).conns c = some ⟨if (S (j - 1)).terminating then .closed else .waiting, wire ++ rest⟩ :=
  delivered_aux hrun hfair hok hs _ rest rfl i wire hc

/-- **C106** (answered).  Whatever is read on a connection: if the host has an answer to it, then at some later time the
peer has been sent, after all that was sent before, exactly this answer, whatever happens on the other connections. -/
theorem C106_answered (env : Ext σ H) {S : Nat → Server σ} {ev : Nat → Event σ} (hrun : Runs env S ev) {c : Nat}
    (hfair : TakesBytes S ev c) (hok : NeverFails ev c) (hs : ∀ i, (S i).serving = true) {i : Nat} {ch : Choice}
    {raw data : Bytes} (hev : ev i = .recv c ch raw) (ho : (onInput env ch (S i).host raw).2 = .ok (some data)) :
    ∃ j > i, sentOn (S j) c = sentOn (S i) c ++ data ∧ toSend (S j) c = [] := by
  have h := hrun i
  rw [hev] at h
  simp only [Server.step] at h
  split at h
  · next k hk =>
    split at h
    · simp only [Option.some.injEq] at h
      have e : (S (i + 1)).conns c = some ⟨.sending data, k.wire⟩ := by
        rw [← h]
        unfold Server.handle
        simp only [ho]
        exact setConn_same _ _ _
      obtain ⟨j, hj, e2⟩ := C106_delivered env hrun hfair hok hs e
      refine ⟨j, by omega, ?_, ?_⟩
      · unfold sentOn; rw [e2, hk]
      · unfold toSend; rw [e2]; cases (S (j - 1)).terminating <;> rfl
    · simp at h
  · simp at h

/-- **C106** for a TCP handshake: every well-formed handshake frame read on a connection, in whatever state the host is, is
answered sooner or later by a complete frame with its id, its context and the version of the SDK. -/
theorem C106_handshake (env : Ext σ H) {S : Nat → Server σ} {ev : Nat → Event σ} (hrun : Runs env S ev) {c : Nat}
    (hfair : TakesBytes S ev c) (hok : NeverFails ev c) (hs : ∀ i, (S i).serving = true) {i : Nat} {ch : Choice}
    {frame trailing : Bytes} (hev : ev i = .recv c ch (frame ++ trailing)) {ctx : ThreadContext} {f : List String}
    {id : Int} {hsk cp : Bool} {task : TaskId} {v : Version}
    (h : RequestFrame frame ctx f (HandshakerRequest.writeTo ⟨task, some v⟩) "internal:tcp/handshake" id hsk cp)
    (ht : TaskIdOK task) (hv : VersionOK v) :
    ∃ j > i, ∃ out body, sentOn (S j) c = sentOn (S i) c ++ out ∧ ReplyIs out id hsk cp ctx body ∧
      HandshakerResponse.readFrom body = .ok (⟨Version.new 3000099⟩, []) := by
  obtain ⟨out, body, o1, o2, o3, _⟩ := C37_tcp_handshake env ch (S i).host h ht hv trailing
  obtain ⟨j, hj, e, _⟩ := C106_answered env hrun hfair hok hs hev (by rw [o1])
  exact ⟨j, hj, out, body, e, o2, o3⟩

/-- **C106** for a REST request: the handler's response is delivered sooner or later. -/
theorem C106_rest (env : Ext σ H) {S : Nat → Server σ} {ev : Nat → Event σ} (hrun : Runs env S ev) {c : Nat}
    (hfair : TakesBytes S ev c) (hok : NeverFails ev c) (hs : ∀ i, (S i).serving = true) {i : Nat} {ch : Choice}
    {frame trailing : Bytes} (hev : ev i = .recv c ch (frame ++ trailing)) {ctx : ThreadContext} {f : List String}
    {id : Int} {hsk cp : Bool} {r : ExtensionRestRequest} {m : RestMethod} {hd : H} {x : σ}
    {resp : ExtensionRestResponse}
    (h : RequestFrame frame ctx f r.writeTo "internal:extensions/restexecuteonextensiontaction" id hsk cp)
    (hr : RequestOK r) (hm : r.method = some m)
    (hroute : env.registry.dispatch (m.name ++ " " ++ r.path) = some hd)
    (hrest : env.run hd (S i).host.ext { r with consumed_params := [], content_consumed := false } = (x, .ok resp))
    (hresp : ResponseOK resp)
    (hfits : 17 + ctx.size + (executeResponse ch resp).writeTo.out.length < 2 ^ 31) :
    ∃ j > i, ∃ out body d, sentOn (S j) c = sentOn (S i) c ++ out ∧ ReplyIs out id hsk cp ctx body ∧
      RestExecuteOnExtensionResponse.readFrom body = .ok (d, []) ∧ d.status = resp.status ∧
      d.content_type = resp.content_type ∧ d.content = resp.content ∧ d.headers = resp.headers := by
  obtain ⟨out, body, d, o1, o2, o3, o4, o5, o6, o7, _⟩ :=
    C38_rest env ch (S i).host h hr hm hroute hrest hresp hfits trailing
  obtain ⟨j, hj, e, _⟩ := C106_answered env hrun hfair hok hs hev (by rw [o1])
  exact ⟨j, hj, out, body, d, e, o2, o3, o4, o5, o6, o7⟩

/-! ## Cases that meet the hypotheses -/

/-- The events of a run without end: a request is read, its answer taken in two pieces; nothing else ever happens, but
time goes on. -/
def liveEvents : Nat → Event Nat
  | 0 => .accept 0
  | 1 => .recv 0 sampleChoice sampleTcpFrame
  | 2 => .sent 0 5
  | 3 => .sent 0 ((sentOut sampleExt sampleChoice sampleHost sampleTcpFrame).length - 5)
  | _ => .other 2 [] 0

/-- The first states of that run. -/
def liveFirst : Nat → Server Nat
  | 0 => Server.start sampleHost
  | i + 1 => ((liveFirst i).step sampleExt (liveEvents i)).getD (Server.start sampleHost)

/-- The states of that run. -/
def liveStates (i : Nat) : Server Nat :=
  if i ≤ 4 then liveFirst i
  else { liveFirst 4 with host := { (liveFirst 4).host with ids := 2, settings := [], ext := 0 } }

theorem live_runs : Runs sampleExt liveStates liveEvents := by
  have first : ∀ i < 4, (liveFirst i).step sampleExt (liveEvents i) = some (liveFirst (i + 1)) := by
    intro i hi
    have key : ((liveFirst i).step sampleExt (liveEvents i)).isSome = true := by
      revert i
      decide +kernel
    obtain ⟨T, hT⟩ := Option.isSome_iff_exists.1 key
    rw [hT, liveFirst, hT]; rfl
  have h4 : (liveFirst 4).host.ids ≤ 2 := by decide +kernel
  intro i
  rcases Nat.lt_trichotomy i 4 with h | rfl | h
  · unfold liveStates
    rw [if_pos (by omega), if_pos (by omega)]
    exact first i h
  · unfold liveStates
    rw [if_pos (by omega), if_neg (by omega)]
    show (liveFirst 4).step sampleExt (.other 2 [] 0) = _
    simp only [Server.step]
    rw [if_pos h4]
  · unfold liveStates
    rw [if_neg (show ¬ i ≤ 4 by omega), if_neg (show ¬ i + 1 ≤ 4 by omega)]
    have : liveEvents i = .other 2 [] 0 := by
      obtain ⟨d, rfl⟩ := Nat.exists_eq_add_of_lt h
      show liveEvents (4 + d + 1) = _
      rw [show 4 + d + 1 = d + 1 + 4 by omega]
      rfl
    rw [this]
    simp only [Server.step]
    rw [if_pos (Nat.le_refl 2)]

/-- The phase of connection 0 from the fourth event on. -/
theorem live_after (i : Nat) (h : 4 ≤ i) : (liveStates i).conns 0 = (liveFirst 4).conns 0 := by
  unfold liveStates
  by_cases h' : i ≤ 4
  · have : i = 4 := by omega
    subst this
    rw [if_pos (Nat.le_refl 4)]
  · rw [if_neg h']

theorem live_takes : TakesBytes liveStates liveEvents 0 := by
  intro i rest wire h
  have hlen : 0 < (sentOut sampleExt sampleChoice sampleHost sampleTcpFrame).length - 5 := by decide +kernel
  rcases Nat.lt_or_ge i 4 with hi | hi
  · have e : i ≤ 2 ∨ i = 3 := by omega
    rcases e with hi | rfl
    · exact ⟨2, hi, _, rfl, .inr (by decide)⟩
    · exact ⟨3, Nat.le_refl 3, _, rfl, .inr hlen⟩
  · exfalso
    rw [live_after i hi] at h
    have : ((liveFirst 4).conns 0).map (·.phase) = some .waiting := by decide +kernel
    rw [h] at this
    cases this

theorem live_never_fails : NeverFails liveEvents 0 := by
  intro i
  match i with
  | 0 => exact fun h => by cases h
  | 1 => exact fun h => by cases h
  | 2 => exact fun h => by cases h
  | 3 => exact fun h => by cases h
  | n + 4 => exact fun h => by cases h

theorem live_serving (i : Nat) : (liveStates i).serving = true := by
  have key : ∀ i ≤ 4, (liveFirst i).serving = true := by decide +kernel
  unfold liveStates
  by_cases h : i ≤ 4
  · rw [if_pos h]; exact key i h
  · rw [if_neg h]
    have := key 4 (Nat.le_refl 4)
    generalize liveFirst 4 = L at this ⊢
    exact this

/-- C106: the answer to the handshake, read as the second event, is delivered. -/
example := C106_answered sampleExt live_runs live_takes live_never_fails live_serving (i := 1) (ch := sampleChoice)
  (raw := sampleTcpFrame) rfl (data := sentOut sampleExt sampleChoice sampleHost sampleTcpFrame)
  (by rw [show (liveStates 1).host = sampleHost from rfl, sampleTcp_sends])

example := C106_delivered sampleExt live_runs live_takes live_never_fails live_serving (i := 2)
  (rest := sentOut sampleExt sampleChoice sampleHost sampleTcpFrame) (wire := []) (by decide +kernel)
example := C106_handshake sampleExt live_runs live_takes live_never_fails live_serving (i := 1) (ch := sampleChoice)
  (frame := sampleTcpFrame) (trailing := []) (by rw [List.append_nil]; rfl) (task := ⟨"n", some 3⟩)
  (v := Version.new 3000099) sampleTcpFrame_ok (by decide +kernel) (by decide +kernel)

/-- (With a REST request.) The events of a run without end: a request is read, its answer taken in two pieces; nothing else ever happens, but
time goes on. -/
def restEvents : Nat → Event Nat
  | 0 => .accept 0
  | 1 => .recv 0 sampleChoice sampleRestFrame
  | 2 => .sent 0 5
  | 3 => .sent 0 ((sentOut sampleExt sampleChoice sampleHost sampleRestFrame).length - 5)
  | _ => .other 2 [] 1

/-- (With a REST request.) The first states of that run. -/
def restFirst : Nat → Server Nat
  | 0 => Server.start sampleHost
  | i + 1 => ((restFirst i).step sampleExt (restEvents i)).getD (Server.start sampleHost)

/-- (With a REST request.) The states of that run. -/
def restStates (i : Nat) : Server Nat :=
  if i ≤ 4 then restFirst i
  else { restFirst 4 with host := { (restFirst 4).host with ids := 2, settings := [], ext := 1 } }

theorem restLive_runs : Runs sampleExt restStates restEvents := by
  have first : ∀ i < 4, (restFirst i).step sampleExt (restEvents i) = some (restFirst (i + 1)) := by
    intro i hi
    have key : ((restFirst i).step sampleExt (restEvents i)).isSome = true := by
      revert i
      decide +kernel
    obtain ⟨T, hT⟩ := Option.isSome_iff_exists.1 key
    rw [hT, restFirst, hT]; rfl
  have h4 : (restFirst 4).host.ids ≤ 2 := by decide +kernel
  intro i
  rcases Nat.lt_trichotomy i 4 with h | rfl | h
  · unfold restStates
    rw [if_pos (by omega), if_pos (by omega)]
    exact first i h
  · unfold restStates
    rw [if_pos (by omega), if_neg (by omega)]
    show (restFirst 4).step sampleExt (.other 2 [] 1) = _
    simp only [Server.step]
    rw [if_pos h4]
  · unfold restStates
    rw [if_neg (show ¬ i ≤ 4 by omega), if_neg (show ¬ i + 1 ≤ 4 by omega)]
    have : restEvents i = .other 2 [] 1 := by
      obtain ⟨d, rfl⟩ := Nat.exists_eq_add_of_lt h
      show restEvents (4 + d + 1) = _
      rw [show 4 + d + 1 = d + 1 + 4 by omega]
      rfl
    rw [this]
    simp only [Server.step]
    rw [if_pos (Nat.le_refl 2)]

/-- (With a REST request.) The phase of connection 0 from the fourth event on. -/
theorem restLive_after (i : Nat) (h : 4 ≤ i) : (restStates i).conns 0 = (restFirst 4).conns 0 := by
  unfold restStates
  by_cases h' : i ≤ 4
  · have : i = 4 := by omega
    subst this
    rw [if_pos (Nat.le_refl 4)]
  · rw [if_neg h']

theorem restLive_takes : TakesBytes restStates restEvents 0 := by
  intro i rest wire h
  have hlen : 0 < (sentOut sampleExt sampleChoice sampleHost sampleRestFrame).length - 5 := by decide +kernel
  rcases Nat.lt_or_ge i 4 with hi | hi
  · have e : i ≤ 2 ∨ i = 3 := by omega
    rcases e with hi | rfl
    · exact ⟨2, hi, _, rfl, .inr (by decide)⟩
    · exact ⟨3, Nat.le_refl 3, _, rfl, .inr hlen⟩
  · exfalso
    rw [restLive_after i hi] at h
    have : ((restFirst 4).conns 0).map (·.phase) = some .waiting := by decide +kernel
    rw [h] at this
    cases this

theorem restLive_never_fails : NeverFails restEvents 0 := by
  intro i
  match i with
  | 0 => exact fun h => by cases h
  | 1 => exact fun h => by cases h
  | 2 => exact fun h => by cases h
  | 3 => exact fun h => by cases h
  | n + 4 => exact fun h => by cases h

theorem restLive_serving (i : Nat) : (restStates i).serving = true := by
  have key : ∀ i ≤ 4, (restFirst i).serving = true := by decide +kernel
  unfold restStates
  by_cases h : i ≤ 4
  · rw [if_pos h]; exact key i h
  · rw [if_neg h]
    have := key 4 (Nat.le_refl 4)
    generalize restFirst 4 = L at this ⊢
    exact this

example := C106_rest sampleExt restLive_runs restLive_takes restLive_never_fails restLive_serving (i := 1) (ch := sampleChoice)
  (frame := sampleRestFrame) (trailing := []) (by rw [List.append_nil]; rfl) sampleRestFrame_ok sampleRest_ok (m := .GET) rfl
  (hd := true) (by decide +kernel) rfl sampleRestAnswer_ok (by decide +kernel)

end Verif
