import Verif.Lemmas.Server
import Verif.Props.Requests
import Verif.Props.Framing
import Verif.Props.Pending
/-!
# C49, C50, C65, C66: connections under every schedule
-/

namespace Verif
open Py

variable {σ H : Type}

/-- **C50** (state).  Whatever the schedule, the shared host state is the one the sequential server
has: the chunks handled one after another in the order in which they were read. -/
theorem C50_sequential (env : Ext σ H) {S S' : Server σ} {es : List (Event σ)} (h : S.run env es = some S') :
    S'.host = hostAfter env S.host es := run_host h

/-- **C50** (data).  Whatever the schedule, what has been sent on a connection together with what its
handler is still sending is exactly the answers to the chunks read from this connection, in order; nothing
is lost, repeated or sent to another connection.  When the connection has been closed in the middle of
a send, what was sent is a prefix of that.  (Provided that no send on this connection failed.) -/
theorem C50_replies (env : Ext σ H) {s : Host σ} {S : Server σ} {es : List (Event σ)}
    (h : (Server.start s).run env es = some S) (c : Nat) (hf : .sendFail c ∉ es) :
    (Open S c → sentOn S c ++ toSend S c = (answersTo env c s es).flatten) ∧
    sentOn S c <+: (answersTo env c s es).flatten := by
  have hw := run_owes h hf (acc := []) (by simp [Owes, Server.start])
  simp only [List.nil_append] at hw
  change Owes S c (answersTo env c s es).flatten at hw
  unfold Owes at hw
  unfold Open sentOn toSend
  cases hk : S.conns c with
  | none => rw [hk] at hw; simp at hw; simp
  | some k =>
    obtain ⟨p, w⟩ := k
    rw [hk] at hw
    cases p with
    | waiting => simp only at hw; simp [hw]
    | sending rest => simp only at hw; simp [← hw]
    | closed => simp only at hw; simp [hw]

/-- How the specification answers: each chunk in the state left by all the chunks read before it, on any
connection. -/
theorem answersTo_snoc (env : Ext σ H) (s : Host σ) (es : List (Event σ)) (c : Nat) (ch : Choice) (raw : Bytes) :
    answersTo env c s (es ++ [.recv c ch raw])
      = answersTo env c s es ++ [answer env ch (hostAfter env s es) raw] := by
  induction es generalizing s with
  | nil => simp [answersTo, hostAfter]
  | cons e es ih =>
    rw [List.cons_append, answersTo_cons, ih, answersTo_cons env c s e es, hostAfter_cons env s e es,
      List.append_assoc]

/-- **C49** (the connection).  As long as nobody asks the server to stop and the peer does not close the
connection, an accepted connection stays open, whatever bytes are read on it or on other connections, and
whatever sends fail. -/
theorem C49_stays_open (env : Ext σ H) {s : Host σ} {S S' : Server σ} {es fs : List (Event σ)} {c : Nat}
    (h : (Server.start s).run env es = some S) (hc : Open S c) (h' : S.run env fs = some S')
    (h1 : .stop ∉ es ++ fs) (h2 : .eof c ∉ es ++ fs) (h3 : .acceptFail ∉ es ++ fs) :
    Open S' c ∧ S'.serving = true := by
  simp only [List.mem_append, not_or] at h1 h2 h3
  have a0 : Alive (Server.start s) c := ⟨rfl, rfl, rfl, fun k hk => by simp [Server.start] at hk⟩
  have a2 := run_alive h' (run_alive h a0 h2.1 h1.1 h3.1) h2.2 h1.2 h3.2
  obtain ⟨k, hk, _⟩ := hc
  have he := run_exists h' (c := c) (by simp [hk])
  cases hk' : S'.conns c with
  | none => exact absurd hk' he
  | some k' => exact ⟨⟨k', hk', a2.2.2.2 k' hk'⟩, a2.2.2.1⟩

/-- **C49** (one read).  Any chunk can be read on a waiting connection; handling it never fails, leaves all
other connections and the accept loop as they are, and either the connection waits again or it sends an
answer, after which it waits again. -/
theorem C49_serves_on (env : Ext σ H) {S : Server σ} {c : Nat} {wire : Bytes} (hc : S.conns c = some ⟨.waiting, wire⟩)
    (ht : S.terminating = false) (ch : Choice) {raw : Bytes} (hr : raw ≠ []) (hl : raw.length ≤ 10240) :
    ∃ S', S.step env (.recv c ch raw) = some S' ∧ (∀ d, d ≠ c → S'.conns d = S.conns d) ∧
      S'.serving = S.serving ∧ S'.terminating = false ∧
      (S'.conns c = some ⟨.waiting, wire⟩ ∨
        ∃ out, (onInput env ch S.host raw).2 = .ok (some out) ∧ S'.conns c = some ⟨.sending out, wire⟩ ∧
          ∃ S'', S'.step env (.sent c out.length) = some S'' ∧ S''.conns c = some ⟨.waiting, wire ++ out⟩) := by
  have hs : S.step env (.recv c ch raw) = some (S.handle env c ⟨.waiting, wire⟩ ch raw) := by
    simp only [Server.step, hc]
    exact if_pos ⟨trivial, hr, hl⟩
  refine ⟨_, hs, fun d hd => handle_other _ _ _ _ _ hd, handle_serving _ _ _ _ _ _,
    (handle_terminating _ _ _ _ _ _).trans ht, ?_⟩
  have hte := (handle_terminating env S c ⟨.waiting, wire⟩ ch raw).trans ht
  rcases handle_same env S c ⟨.waiting, wire⟩ ch raw with ⟨out, h1, h2⟩ | ⟨_, h2⟩
  · right
    refine ⟨out, h1, h2, ?_⟩
    simp only [Server.step, h2, Nat.lt_irrefl, if_false, if_true]
    exact ⟨_, rfl, by rw [passDone_same, hte]; rfl⟩
  · left; rw [h2, ht]; rfl

/-- **C49** (the host).  After any run the host is in a reachable state, so everything proved of reachable
states still holds. -/
theorem C49_reachable (env : Ext σ H) {s : Host σ} {S : Server σ} {es : List (Event σ)}
    (h : (Server.start s).run env es = some S) (hs : Started s) : Reachable env S.host :=
  ⟨s, hs, run_evolves h .refl⟩

/-- **C49** (what follows).  After any run that leaves the connection waiting, however bad the bytes of the
run were, a handshake frame read on the connection is answered on this connection. -/
theorem C49_still_answers (env : Ext σ H) {s : Host σ} {S : Server σ} {es : List (Event σ)} {c : Nat} {wire : Bytes}
    (_h : (Server.start s).run env es = some S) (hc : S.conns c = some ⟨.waiting, wire⟩) (ht : S.terminating = false)
    (ch : Choice) {frame : Bytes} {ctx : ThreadContext} {f : List String} {id : Int} {hs cp : Bool} {task : TaskId}
    {v : Version}
    (hf : RequestFrame frame ctx f (HandshakerRequest.writeTo ⟨task, some v⟩) "internal:tcp/handshake" id hs cp)
    (hl : frame.length ≤ 10240) (htask : TaskIdOK task) (hv : VersionOK v) :
    ∃ out S' S'', S.step env (.recv c ch frame) = some S' ∧ S'.step env (.sent c out.length) = some S'' ∧
      S''.conns c = some ⟨.waiting, wire ++ out⟩ ∧
      ∃ body, ReplyIs out id hs cp ctx body ∧
        HandshakerResponse.readFrom body = .ok (⟨Version.new 3000099⟩, []) := by
  obtain ⟨out, body, o1, o2, o3, _⟩ := C37_tcp_handshake env ch S.host hf htask hv []
  rw [List.append_nil] at o1
  have hne : frame ≠ [] := by
    rintro rfl
    obtain ⟨req, r1, r2, _⟩ := short_is_request [] (by simp)
    obtain ⟨_, _, req', q1, _, _, _, _, _, _, _, _, q10⟩ := frame_parses hf []
    have := (IsRequest.unique r1 q1).1
    rw [← this, r2] at q10
    revert q10; decide +kernel
  obtain ⟨S', s1, _, _, _, s2 | ⟨out', s2, s3, S'', s4, s5⟩⟩ := C49_serves_on env hc ht ch hne hl
  · rcases handle_same env S c ⟨.waiting, wire⟩ ch frame with ⟨o, _, h2⟩ | ⟨h1, _⟩
    · have : S' = S.handle env c ⟨.waiting, wire⟩ ch frame := by
        have e : S.step env (.recv c ch frame) = some (S.handle env c ⟨.waiting, wire⟩ ch frame) := by
          simp only [Server.step, hc]
          exact if_pos ⟨trivial, hne, hl⟩
        rw [e] at s1; exact (Option.some.inj s1).symm
      rw [this, h2] at s2; simp at s2
    · exfalso
      unfold answer at h1
      rw [o1] at h1
      simp only at h1
      subst h1
      obtain ⟨r, hr, _⟩ := o2
      obtain ⟨req, r1, _⟩ := short_is_request [] (by simp)
      exact IsRequest.not_response r1 hr
  · rw [o1] at s2
    simp only [Except.ok.injEq, Option.some.injEq] at s2
    subst s2
    exact ⟨out, S', S'', s1, s4, s5, body, o2, o3⟩

/-- **C65** (stopping).  Once the server has been asked to stop, at most one more connection is accepted and
each connection handles at most one more chunk. -/
theorem C65_stops (env : Ext σ H) {S S' : Server σ} {es : List (Event σ)} (ht : S.terminating = true)
    (h : S.run env es = some S') : accepts es ≤ 1 ∧ ∀ c, reads c es ≤ 1 := run_stopping h ht

theorem passDone_ends (env : Ext σ H) {S : Server σ} {c : Nat} {k : Conn} (ht : S.terminating = true)
    (hs : S.serving = true) :
    ∃ S', (S.passDone c k).step env .cancelled = some S' ∧ S'.serving = false ∧
      (∀ d k', S'.conns d = some k' → k'.phase = .closed) ∧ S'.conns c = some { k with phase := .closed } := by
  have e : (S.passDone c k).serving = true ∧ (S.passDone c k).cancelling = true := by
    refine ⟨by rw [passDone_serving]; exact hs, ?_⟩
    unfold Server.passDone; rw [if_pos ht]
  simp only [Server.step, e, and_self, if_true]
  refine ⟨_, rfl, rfl, fun d k' hk => ?_, ?_⟩
  · simp only [Server.shutdown, Option.map_eq_some_iff] at hk
    obtain ⟨_, _, rfl⟩ := hk
    rfl
  · simp only [Server.shutdown, Option.map_eq_some_iff]
    exact ⟨_, passDone_same _ _ _, rfl⟩

/-- **C65** (and how).  Once the server has been asked to stop, the next chunk read on any connection is still
handled and answered (if it has an answer, and once the operating system has taken it); then the accept loop
ends and all connections are closed. -/
theorem C65_next_chunk_ends (env : Ext σ H) {S : Server σ} {c : Nat} {wire : Bytes}
    (hc : S.conns c = some ⟨.waiting, wire⟩) (ht : S.terminating = true) (hs : S.serving = true)
    (ch : Choice) {raw : Bytes} (hr : raw ≠ []) (hl : raw.length ≤ 10240) :
    ∃ fs S', (fs = [] ∨ ∃ n, fs = [.sent c n]) ∧ S.run env (.recv c ch raw :: (fs ++ [.cancelled])) = some S' ∧
      S'.serving = false ∧ (∀ d k, S'.conns d = some k → k.phase = .closed) ∧
      S'.conns c = some ⟨.closed, wire ++ answer env ch S.host raw⟩ := by
  have h1 : S.step env (.recv c ch raw) = some (S.handle env c ⟨.waiting, wire⟩ ch raw) := by
    simp only [Server.step, hc]
    exact if_pos ⟨trivial, hr, hl⟩
  cases ho : (onInput env ch S.host raw).2 with
  | error e =>
    have e1 : S.handle env c ⟨.waiting, wire⟩ ch raw
        = { S with host := (onInput env ch S.host raw).1 }.passDone c ⟨.waiting, wire⟩ := by
      unfold Server.handle; dsimp only; rw [ho]
    obtain ⟨S', s1, s2, s3, s4⟩ := passDone_ends env (S := { S with host := (onInput env ch S.host raw).1 })
      (c := c) (k := ⟨.waiting, wire⟩) ht hs
    refine ⟨[], S', .inl rfl, ?_, s2, s3, ?_⟩
    · simp only [Server.run, h1, Option.bind_some, List.nil_append, e1, s1]
    · rw [s4]; simp [answer, ho]
  | ok o =>
    cases o with
    | none =>
      have e1 : S.handle env c ⟨.waiting, wire⟩ ch raw
          = { S with host := (onInput env ch S.host raw).1 }.passDone c ⟨.waiting, wire⟩ := by
        unfold Server.handle; dsimp only; rw [ho]
      obtain ⟨S', s1, s2, s3, s4⟩ := passDone_ends env (S := { S with host := (onInput env ch S.host raw).1 })
        (c := c) (k := ⟨.waiting, wire⟩) ht hs
      refine ⟨[], S', .inl rfl, ?_, s2, s3, ?_⟩
      · simp only [Server.run, h1, Option.bind_some, List.nil_append, e1, s1]
      · rw [s4]; simp [answer, ho]
    | some out =>
      have e1 : S.handle env c ⟨.waiting, wire⟩ ch raw
          = { S with host := (onInput env ch S.host raw).1 }.setConn c ⟨.sending out, wire⟩ := by
        unfold Server.handle; dsimp only; rw [ho]
      have e2 : ({ S with host := (onInput env ch S.host raw).1 }.setConn c ⟨.sending out, wire⟩).step env
          (.sent c out.length) = some (({ S with host := (onInput env ch S.host raw).1 }.setConn c
            ⟨.sending out, wire⟩).passDone c ⟨.sending [], wire ++ out⟩) := by
        simp only [Server.step, setConn_same, Nat.lt_irrefl, if_false, if_true]
      obtain ⟨S', s1, s2, s3, s4⟩ := passDone_ends env
        (S := { S with host := (onInput env ch S.host raw).1 }.setConn c ⟨.sending out, wire⟩)
        (c := c) (k := ⟨.sending [], wire ++ out⟩) ht hs
      refine ⟨[.sent c out.length], S', .inr ⟨_, rfl⟩, ?_, s2, s3, ?_⟩
      · simp only [Server.run, h1, Option.bind_some, List.cons_append, List.nil_append, e1, e2, s1]
      · rw [s4]; simp [answer, ho]

/-- **C66, violated.**  Asking the server to stop does not stop it: as long as no peer connects and none sends
anything, the accept loop goes on; peers that close their connections do not end it either. -/
theorem C66_violated (env : Ext σ H) (s : Host σ) :
    ∀ es S S', (Server.start s).run env es = some S → .stop ∉ es → .acceptFail ∉ es →
      ∀ fs, (∀ e ∈ fs, e = .stop ∨ (∃ c, e = .eof c) ∨ ∃ n d x, e = .other n d x) →
        S.run env (.stop :: fs) = some S' → S'.terminating = true ∧ S'.serving = true ∧
          S'.step env .cancelled = none := by
  intro es S S' h hstop hfail fs hfs h'
  obtain ⟨h2, h3⟩ := run_not_stopping h hstop hfail rfl rfl rfl
  obtain ⟨T, t1, t2⟩ := run_cons h'
  simp only [Server.step, Option.some.injEq] at t1
  have key : T.terminating = true ∧ T.cancelling = false ∧ T.serving = true := by
    subst t1; exact ⟨rfl, h3.1, h3.2⟩
  clear t1 h'
  induction fs generalizing T with
  | nil =>
    simp only [Server.run, Option.some.injEq] at t2; subst t2
    refine ⟨key.1, key.2.2, ?_⟩
    simp [Server.step, key.2.1]
  | cons e fs ih =>
    obtain ⟨U, u1, u2⟩ := run_cons t2
    refine ih (fun e he => hfs e (List.mem_cons_of_mem _ he)) U u2 ?_
    rcases hfs e (List.mem_cons_self ..) with rfl | ⟨c, rfl⟩ | ⟨n, d, x, rfl⟩
    · simp only [Server.step, Option.some.injEq] at u1; subst u1; exact ⟨rfl, key.2⟩
    · simp only [Server.step] at u1
      split at u1
      · split at u1
        · simp only [Option.some.injEq] at u1; subst u1; exact key
        · simp at u1
      · simp at u1
    · simp only [Server.step] at u1
      split at u1
      · simp only [Option.some.injEq] at u1; subst u1; exact key
      · simp at u1

/-! ## Cases that meet the hypotheses -/

/-- A run with two connections: the initialisation arrives on connection 0, then garbage on both, the
acknowledgement on connection 1; the answers are sent in pieces; then a stop. -/
def sampleRun : List (Event Nat) :=
  [.accept 0, .accept 1, .recv 0 sampleChoice sampleInitFrame, .recv 1 sampleChoice [1, 2, 3], .sent 0 10,
   .sendFail 1, .recv 1 sampleChoice (sampleAck true 3), .sent 1 1, .sent 0 134, .recv 0 sampleChoice (List.replicate 40 255),
   .other 50 [] 7, .sent 1 107, .stop, .recv 0 sampleChoice (sampleSettingsFrame 2), .sent 0 20]

/-- C49, C50: the run is possible (all hypotheses of the theorems about runs are met) and what was sent is not
trivial. -/
example : ((Server.start sampleHost).run sampleExt sampleRun).isSome = true ∧
    (((Server.start sampleHost).run sampleExt sampleRun).map fun S => (S.conns 0).map (·.wire.length)) = some (some 164) ∧
    (((Server.start sampleHost).run sampleExt sampleRun).map fun S => (S.conns 1).map (·.phase)) = some (some .waiting) ∧
    (((Server.start sampleHost).run sampleExt sampleRun).map fun S => S.host.pending.map (·.1)) = some [] := by
  decide +kernel

/-- The server after that run, and after the part of it before the stop. -/
def sampleServer : Server Nat := ((Server.start sampleHost).run sampleExt sampleRun).get (by decide +kernel)
def sampleUnstopped : Server Nat :=
  ((Server.start sampleHost).run sampleExt (sampleRun.take 12)).get (by decide +kernel)
/-- The server with one peer, and after a stop request. -/
def sampleIdle : Server Nat := ((Server.start sampleHost).run sampleExt [.accept 0]).get (by decide +kernel)
def sampleStopping : Server Nat := ((Server.start sampleHost).run sampleExt [.accept 0, .stop]).get (by decide +kernel)

theorem sampleServer_run : (Server.start sampleHost).run sampleExt sampleRun = some sampleServer :=
  (Option.some_get _).symm
theorem sampleUnstopped_run : (Server.start sampleHost).run sampleExt (sampleRun.take 12) = some sampleUnstopped :=
  (Option.some_get _).symm
theorem sampleIdle_run : (Server.start sampleHost).run sampleExt [.accept 0] = some sampleIdle :=
  (Option.some_get _).symm

/-- The idle server after an answer that could not be sent, and garbage. -/
def sampleOn : Server Nat := (sampleIdle.run sampleExt
  [.recv 0 sampleChoice sampleInitFrame, .sendFail 0, .recv 0 sampleChoice [1, 2, 3]]).get (by decide +kernel)
theorem sampleIdle_on : sampleIdle.run sampleExt
    [.recv 0 sampleChoice sampleInitFrame, .sendFail 0, .recv 0 sampleChoice [1, 2, 3]] = some sampleOn :=
  (Option.some_get _).symm

example := C49_reachable sampleExt sampleServer_run sampleHost_started
example := C49_serves_on sampleExt (S := sampleIdle) (c := 0) (wire := []) (by decide +kernel) (by decide +kernel) sampleChoice
  (raw := [1, 2, 3]) (by decide) (by decide)
example := C49_stays_open sampleExt sampleIdle_run (c := 0)
  (by unfold Open; exact ⟨_, show sampleIdle.conns 0 = some ⟨.waiting, []⟩ by decide +kernel, by decide⟩)
  (fs := [.recv 0 sampleChoice sampleInitFrame, .sendFail 0, .recv 0 sampleChoice [1, 2, 3]])
  sampleIdle_on
  nofun nofun nofun
example := C49_still_answers sampleExt sampleIdle_run (c := 0) (wire := []) (by decide +kernel) (by decide +kernel) sampleChoice
  (task := ⟨"n", some 3⟩) (v := Version.new 3000099) sampleTcpFrame_ok (by decide +kernel) (by decide +kernel) (by decide +kernel)
example := C50_replies sampleExt sampleServer_run 0 nofun
example := C50_sequential sampleExt sampleServer_run
example := C65_next_chunk_ends sampleExt (S := sampleStopping) (c := 0) (wire := []) (by decide +kernel) (by decide +kernel)
  (by decide +kernel) sampleChoice (raw := sampleInitFrame) (by decide +kernel) (by decide +kernel)
example := C65_stops sampleExt (S := sampleStopping) (by decide +kernel) (es := [.accept 1])
  (Option.some_get (show (sampleStopping.run sampleExt [.accept 1]).isSome by decide +kernel)).symm

end Verif
