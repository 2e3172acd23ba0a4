import Verif.Lemmas.Server
import Verif.Lemmas.Sample
import Verif.Spec.Lifecycle
/-!
# C104: the life of a connection

A connection is accepted, waits for bytes, sends an answer, waits again, and is closed once.
-/

namespace Verif
open Py

variable {σ H : Type}

/-- An event about another connection leaves this one, unless it ends the server. -/
theorem step_elsewhere {env : Ext σ H} {S S' : Server σ} {e : Event σ} {c : Nat} (h : S.step env e = some S')
    (hc : e.about ≠ some c) :
    S'.conns c = S.conns c ∨ (S'.serving = false ∧ S'.conns c = (S.conns c).map fun k => { k with phase := .closed }) := by
  cases e with
  | accept d =>
    have hd : c ≠ d := fun hh => hc (by simp [Event.about, hh])
    simp only [Server.step] at h
    split at h
    · simp only [Option.some.injEq] at h; subst h
      split
      · right
        refine ⟨rfl, ?_⟩
        simp only [Server.shutdown]
        rw [setConn_other _ _ hd]
      · left; exact setConn_other _ _ hd
    · simp at h
  | recv d ch raw =>
    have hd : c ≠ d := fun hh => hc (by simp [Event.about, hh])
    simp only [Server.step] at h
    split at h
    · split at h
      · simp only [Option.some.injEq] at h; subst h
        left; exact handle_other _ _ _ _ _ hd
      · simp at h
    · simp at h
  | sent d n =>
    have hd : c ≠ d := fun hh => hc (by simp [Event.about, hh])
    simp only [Server.step] at h
    split at h
    · split at h
      · split at h
        · simp only [Option.some.injEq] at h; subst h
          left; exact setConn_other _ _ hd
        · split at h
          · simp only [Option.some.injEq] at h; subst h
            left; exact passDone_other _ _ hd
          · simp at h
      · simp at h
    · simp at h
  | sendFail d =>
    have hd : c ≠ d := fun hh => hc (by simp [Event.about, hh])
    simp only [Server.step] at h
    split at h
    · split at h
      · simp only [Option.some.injEq] at h; subst h
        left; exact passDone_other _ _ hd
      · simp at h
    · simp at h
  | eof d =>
    have hd : c ≠ d := fun hh => hc (by simp [Event.about, hh])
    simp only [Server.step] at h
    split at h
    · split at h
      · simp only [Option.some.injEq] at h; subst h
        left; exact setConn_other _ _ hd
      · simp at h
    · simp at h
  | other n d x =>
    simp only [Server.step] at h
    split at h
    · simp only [Option.some.injEq] at h; subst h; exact .inl rfl
    · simp at h
  | stop => simp only [Server.step, Option.some.injEq] at h; subst h; exact .inl rfl
  | cancelled =>
    simp only [Server.step] at h
    split at h
    · simp only [Option.some.injEq] at h; subst h; exact .inr ⟨rfl, rfl⟩
    · simp at h
  | acceptFail =>
    simp only [Server.step] at h
    split at h
    · simp only [Option.some.injEq] at h; subst h; exact .inr ⟨rfl, rfl⟩
    · simp at h

/-- Once the accept loop has returned, it does not run again. -/
theorem step_not_serving {env : Ext σ H} {S S' : Server σ} {e : Event σ} (h : S.step env e = some S')
    (hs : S.serving = false) : S'.serving = false := by
  cases e with
  | accept d => simp [Server.step, hs] at h
  | recv d ch raw =>
    simp only [Server.step] at h
    split at h
    · split at h
      · simp only [Option.some.injEq] at h; subst h; rw [handle_serving]; exact hs
      · simp at h
    · simp at h
  | sent d n =>
    simp only [Server.step] at h
    split at h
    · split at h
      · split at h
        · simp only [Option.some.injEq] at h; subst h; exact hs
        · split at h
          · simp only [Option.some.injEq] at h; subst h; rw [passDone_serving]; exact hs
          · simp at h
      · simp at h
    · simp at h
  | sendFail d =>
    simp only [Server.step] at h
    split at h
    · split at h
      · simp only [Option.some.injEq] at h; subst h; rw [passDone_serving]; exact hs
      · simp at h
    · simp at h
  | eof d =>
    simp only [Server.step] at h
    split at h
    · split at h
      · simp only [Option.some.injEq] at h; subst h; exact hs
      · simp at h
    · simp at h
  | other n d x =>
    simp only [Server.step] at h
    split at h
    · simp only [Option.some.injEq] at h; subst h; exact hs
    · simp at h
  | stop => simp only [Server.step, Option.some.injEq] at h; subst h; exact hs
  | cancelled => simp [Server.step, hs] at h
  | acceptFail => simp [Server.step, hs] at h

theorem run_not_serving {env : Ext σ H} {S S' : Server σ} {es : List (Event σ)} (h : S.run env es = some S')
    (hs : S.serving = false) : S'.serving = false := by
  induction es generalizing S with
  | nil => simp only [Server.run, Option.some.injEq] at h; subst h; exact hs
  | cons e es ih =>
    obtain ⟨T, t1, t2⟩ := run_cons h
    exact ih t2 (step_not_serving t1 hs)

/-- **C104** (a peer may connect).  While the accept loop runs and no stop has been asked for, every further peer is
accepted; its connection waits for bytes, nothing has been sent on it, and nothing else changes. -/
theorem C104_accepts (env : Ext σ H) {S : Server σ} {c : Nat} (hs : S.serving = true) (ht : S.terminating = false)
    (hc : S.conns c = none) :
    ∃ S', S.step env (.accept c) = some S' ∧ S'.conns c = some ⟨.waiting, []⟩ ∧ S'.host = S.host ∧ S'.serving = true ∧
      S'.terminating = false ∧ ∀ d, d ≠ c → S'.conns d = S.conns d := by
  refine ⟨S.setConn c {}, ?_, setConn_same _ _ _, rfl, hs, ht, fun d hd => setConn_other _ _ hd⟩
  have e : (S.setConn c {}).terminating = false := ht
  simp only [Server.step]
  rw [if_pos ⟨hs, hc⟩, e]
  simp

/-- **C104** (a peer may go).  A peer that closes its connection, or whose connection breaks, while the handler waits for
bytes, has exactly this connection closed: what was sent stays sent, and neither the other connections nor the state of the
extension change. -/
theorem C104_hang_up (env : Ext σ H) {S : Server σ} {c : Nat} {wire : Bytes} (hc : S.conns c = some ⟨.waiting, wire⟩) :
    ∃ S', S.step env (.eof c) = some S' ∧ S'.conns c = some ⟨.closed, wire⟩ ∧ S'.host = S.host ∧
      S'.serving = S.serving ∧ S'.terminating = S.terminating ∧ ∀ d, d ≠ c → S'.conns d = S.conns d := by
  refine ⟨S.setConn c ⟨.closed, wire⟩, ?_, setConn_same _ _ _, rfl, rfl, rfl, fun d hd => setConn_other _ _ hd⟩
  simp only [Server.step, hc]
  rw [if_pos trivial]

theorem closed_step {env : Ext σ H} {S S' : Server σ} {e : Event σ} {c : Nat} {wire : Bytes}
    (hc : S.conns c = some ⟨.closed, wire⟩) (h : S.step env e = some S') :
    S'.conns c = some ⟨.closed, wire⟩ ∧ e.about ≠ some c := by
  have ha : e.about ≠ some c := by
    intro he
    cases e <;> simp only [Event.about, Option.some.injEq, reduceCtorEq] at he <;> subst he <;>
      simp [Server.step, hc] at h
  refine ⟨?_, ha⟩
  rcases step_elsewhere h ha with e1 | ⟨_, e1⟩
  · rw [e1, hc]
  · rw [e1, hc]; rfl

/-- **C104** (closed for good).  However the run goes on, a closed connection stays closed: nothing more is read from it or
sent on it, and it is not accepted again. -/
theorem C104_closed_for_good (env : Ext σ H) {S S' : Server σ} {es : List (Event σ)} {c : Nat} {wire : Bytes}
    (hc : S.conns c = some ⟨.closed, wire⟩) (h : S.run env es = some S') :
    S'.conns c = some ⟨.closed, wire⟩ ∧ reads c es = 0 ∧ taken c es = 0 ∧ .accept c ∉ es := by
  induction es generalizing S with
  | nil => simp only [Server.run, Option.some.injEq] at h; subst h; exact ⟨hc, rfl, rfl, by simp⟩
  | cons e es ih =>
    obtain ⟨T, t1, t2⟩ := run_cons h
    obtain ⟨h1, h2⟩ := closed_step hc t1
    obtain ⟨i1, i2, i3, i4⟩ := ih h1 t2
    refine ⟨i1, ?_, ?_, ?_⟩
    · cases e <;> simp_all [reads, Event.about]
    · cases e <;> simp_all [taken, Event.about]
    · intro hm
      rcases List.mem_cons.1 hm with rfl | hm
      · exact h2 rfl
      · exact i4 hm

theorem closed_shutdown {env : Ext σ H} {S S' : Server σ} {es : List (Event σ)} {c : Nat}
    (h : S.run env es = some S') (hc : ∃ w, S.conns c = some ⟨.closed, w⟩) : ∃ w, S'.conns c = some ⟨.closed, w⟩ := by
  obtain ⟨w, hw⟩ := hc
  exact ⟨w, (C104_closed_for_good env hw h).1⟩

theorem sending_step {env : Ext σ H} {S S' : Server σ} {e : Event σ} {c : Nat} {rest wire : Bytes}
    (hc : S.conns c = some ⟨.sending rest, wire⟩) (h : S.step env e = some S') :
    (e.about ≠ some c ∧ S'.conns c = some ⟨.sending rest, wire⟩) ∨
    (e.about ≠ some c ∧ S'.conns c = some ⟨.closed, wire⟩ ∧ S'.serving = false) ∨
    (e = .sendFail c) ∨
    (∃ n, e = .sent c n ∧ n < rest.length ∧ S'.conns c = some ⟨.sending (rest.drop n), wire ++ rest.take n⟩) ∨
    (e = .sent c rest.length ∧
      S'.conns c = some ⟨if S.terminating then .closed else .waiting, wire ++ rest⟩) := by
  by_cases ha : e.about = some c
  · right; right
    cases e <;> simp only [Event.about, Option.some.injEq, reduceCtorEq] at ha <;> subst ha
    · simp [Server.step, hc] at h
    · simp [Server.step, hc] at h
    · next d n =>
      right
      simp only [Server.step, hc] at h
      split at h
      · next hn =>
        simp only [Option.some.injEq] at h; subst h
        exact .inl ⟨n, rfl, hn, setConn_same _ _ _⟩
      · split at h
        · next hn =>
          simp only [Option.some.injEq] at h; subst h
          subst hn
          exact .inr ⟨rfl, by rw [passDone_same]⟩
        · simp at h
    · exact .inl rfl
    · simp [Server.step, hc] at h
  · rcases step_elsewhere h ha with e1 | ⟨e0, e1⟩
    · exact .inl ⟨ha, by rw [e1, hc]⟩
    · exact .inr (.inl ⟨ha, by rw [e1, hc]; rfl, e0⟩)

theorem taken_cons (c : Nat) (e : Event σ) (es : List (Event σ)) (h : e.about ≠ some c) :
    taken c (e :: es) = taken c es := by
  cases e <;> simp_all [taken, Event.about]

theorem reads_snoc (c : Nat) (l : List (Event σ)) (ch : Choice) (raw : Bytes) :
    reads c (l ++ [.recv c ch raw]) = reads c l + 1 := by
  induction l with
  | nil => simp [reads]
  | cons x l ihl => rw [List.cons_append, reads_cons, reads_cons c x l, ihl]; omega

theorem taken_snoc (c d : Nat) (l : List (Event σ)) (ch : Choice) (raw : Bytes) :
    taken c (l ++ [.recv d ch raw]) = taken c l := by
  induction l with
  | nil => simp [taken]
  | cons x l ihl => cases x <;> simp_all [taken]

theorem waiting_taken {env : Ext σ H} {c : Nat} {ch : Choice} {raw w : Bytes} {S' : Server σ} :
    ∀ (es : List (Event σ)) (T : Server σ), T.conns c = some ⟨.waiting, w⟩ →
      T.run env (es ++ [.recv c ch raw]) = some S' → reads c es = 0 → taken c es = 0 := by
  intro es
  induction es with
  | nil => intros; rfl
  | cons x es ihx =>
    intro T h2 t2 hr
    rw [List.cons_append] at t2
    obtain ⟨U, u1, u2⟩ := run_cons t2
    rw [reads_cons] at hr
    by_cases hx : x.about = some c
    · exfalso
      cases x <;> simp only [Event.about, Option.some.injEq, reduceCtorEq] at hx <;> subst hx
      · simp [Server.step, h2] at u1
      · simp [reads] at hr
      · simp [Server.step, h2] at u1
      · simp [Server.step, h2] at u1
      · simp only [Server.step, h2, if_true, Option.some.injEq] at u1
        subst u1
        have := (C104_closed_for_good env (setConn_same T _ _) u2).2.1
        rw [reads_snoc] at this
        omega
    · rw [taken_cons _ _ _ hx]
      rcases step_elsewhere u1 hx with e1 | ⟨_, e1⟩
      · exact ihx U (by rw [e1, h2]) u2 (by omega)
      · have := (C104_closed_for_good env (c := c) (wire := w) (by rw [e1, h2]; rfl) u2).2.2.1
        rwa [taken_snoc] at this

/-- **C104** (one thing at a time).  While an answer is being sent, nothing is read from its connection: the next read comes
after all of it has been taken, or after the send has failed. -/
theorem C104_reads_wait (env : Ext σ H) {S S' : Server σ} {es : List (Event σ)} {c : Nat} {rest wire raw : Bytes}
    {ch : Choice} (hc : S.conns c = some ⟨.sending rest, wire⟩) (hr : reads c es = 0) (hf : .sendFail c ∉ es)
    (h : S.run env (es ++ [.recv c ch raw]) = some S') : taken c es = rest.length := by
  induction es generalizing S rest wire with
  | nil =>
    obtain ⟨T, t1, _⟩ := run_cons h
    simp [Server.step, hc] at t1
  | cons e es ih =>
    rw [List.cons_append] at h
    obtain ⟨T, t1, t2⟩ := run_cons h
    simp only [List.mem_cons, not_or] at hf
    rw [reads_cons] at hr
    rcases sending_step hc t1 with ⟨h1, h2⟩ | ⟨h1, h2, _⟩ | h1 | ⟨n, rfl, hn, h2⟩ | ⟨rfl, h2⟩
    · rw [taken_cons _ _ _ h1]
      exact ih h2 (by omega) hf.2 t2
    · exfalso
      have := (C104_closed_for_good env h2 t2).2.1
      rw [reads_snoc] at this
      omega
    · exact absurd h1.symm hf.1
    · have := ih h2 (by omega) hf.2 t2
      simp only [taken, if_true]
      rw [this, List.length_drop]
      omega
    · have ht : taken c es = 0 := by
        cases hterm : S.terminating with
        | true =>
          rw [hterm] at h2
          have := (C104_closed_for_good env h2 t2).2.2.1
          rwa [taken_snoc] at this
        | false =>
          rw [hterm] at h2
          exact waiting_taken es T h2 t2 (by omega)
      simp only [taken, if_true, ht]
      omega

/-- **C104** (an answer is sent to the end).  When the operating system has taken, in pieces of any sizes and with anything
happening on other connections in between, as many bytes as the answer has, then the peer has been sent the whole answer and
the handler waits for the next bytes - unless the send failed, or a stop was asked for or the accept loop ended meanwhile. -/
theorem C104_send_completes (env : Ext σ H) {S S' : Server σ} {es : List (Event σ)} {c : Nat} {rest wire : Bytes}
    (hc : S.conns c = some ⟨.sending rest, wire⟩) (h : S.run env es = some S') (hn : taken c es = rest.length)
    (hne : rest ≠ []) (hr : reads c es = 0) (he : .eof c ∉ es) (hf : .sendFail c ∉ es)
    (hs : S'.serving = true) (ht : S'.terminating = false) :
    S'.conns c = some ⟨.waiting, wire ++ rest⟩ := by
  have hterm : ∀ {T U : Server σ} {l : List (Event σ)}, T.run env l = some U → U.terminating = false → T.terminating = false := by
    intro T U l hl
    induction l generalizing T with
    | nil => simp only [Server.run, Option.some.injEq] at hl; subst hl; exact id
    | cons x l ihl =>
      intro hU
      obtain ⟨V, v1, v2⟩ := run_cons hl
      have hV := ihl v2 hU
      by_contra hT
      simp only [Bool.not_eq_false] at hT
      have : V.terminating = true := by
        cases x with
        | accept d =>
          simp only [Server.step] at v1
          split at v1
          · simp only [Option.some.injEq] at v1; subst v1
            split <;> simpa [Server.shutdown, Server.setConn] using hT
          · simp at v1
        | recv d ch raw =>
          simp only [Server.step] at v1
          split at v1
          · split at v1
            · simp only [Option.some.injEq] at v1; subst v1; rw [handle_terminating]; exact hT
            · simp at v1
          · simp at v1
        | sent d n =>
          simp only [Server.step] at v1
          split at v1
          · split at v1
            · split at v1
              · simp only [Option.some.injEq] at v1; subst v1; exact hT
              · split at v1
                · simp only [Option.some.injEq] at v1; subst v1; rw [passDone_terminating]; exact hT
                · simp at v1
            · simp at v1
          · simp at v1
        | sendFail d =>
          simp only [Server.step] at v1
          split at v1
          · split at v1
            · simp only [Option.some.injEq] at v1; subst v1; rw [passDone_terminating]; exact hT
            · simp at v1
          · simp at v1
        | eof d =>
          simp only [Server.step] at v1
          split at v1
          · split at v1
            · simp only [Option.some.injEq] at v1; subst v1; exact hT
            · simp at v1
          · simp at v1
        | other n d x =>
          simp only [Server.step] at v1
          split at v1
          · simp only [Option.some.injEq] at v1; subst v1; exact hT
          · simp at v1
        | stop => simp only [Server.step, Option.some.injEq] at v1; subst v1; rfl
        | cancelled =>
          simp only [Server.step] at v1
          split at v1
          · simp only [Option.some.injEq] at v1; subst v1; rfl
          · simp at v1
        | acceptFail =>
          simp only [Server.step] at v1
          split at v1
          · simp only [Option.some.injEq] at v1; subst v1; exact hT
          · simp at v1
      rw [this] at hV
      cases hV
  have serving : ∀ {T U : Server σ} {l : List (Event σ)}, T.run env l = some U → U.serving = true → T.serving = true := by
    intro T U l hl hU
    by_contra hT
    simp only [Bool.not_eq_true] at hT
    rw [run_not_serving hl hT] at hU
    cases hU
  have stays : ∀ {l : List (Event σ)} {T : Server σ} {w : Bytes}, T.conns c = some ⟨.waiting, w⟩ → T.run env l = some S' →
      reads c l = 0 → .eof c ∉ l → S'.conns c = some ⟨.waiting, w⟩ := by
    intro l
    induction l with
    | nil => intro T w hT hl _ _; simp only [Server.run, Option.some.injEq] at hl; subst hl; exact hT
    | cons x l ihl =>
      intro T w hT hl hr he
      obtain ⟨V, v1, v2⟩ := run_cons hl
      rw [reads_cons] at hr
      simp only [List.mem_cons, not_or] at he
      have hx : x.about ≠ some c := by
        intro hx
        cases x <;> simp only [Event.about, Option.some.injEq, reduceCtorEq] at hx <;> subst hx
        · simp [Server.step, hT] at v1
        · simp [reads] at hr
        · simp [Server.step, hT] at v1
        · simp [Server.step, hT] at v1
        · exact he.1 rfl
      rcases step_elsewhere v1 hx with e1 | ⟨e0, _⟩
      · exact ihl (by rw [e1, hT]) v2 (by omega) he.2
      · have := serving v2 hs
        rw [e0] at this
        cases this
  induction es generalizing S rest wire with
  | nil =>
    simp only [taken] at hn
    exact absurd (List.eq_nil_of_length_eq_zero hn.symm) hne
  | cons e es ih =>
    obtain ⟨T, t1, t2⟩ := run_cons h
    simp only [List.mem_cons, not_or] at hf he
    rw [reads_cons] at hr
    rcases sending_step hc t1 with ⟨h1, h2⟩ | ⟨h1, h2, h3⟩ | h1 | ⟨n, rfl, hlt, h2⟩ | ⟨rfl, h2⟩
    · rw [taken_cons _ _ _ h1] at hn
      exact ih h2 t2 hn hne (by omega) he.2 hf.2
    · have := serving t2 hs
      rw [h3] at this
      cases this
    · exact absurd h1.symm hf.1
    · simp only [taken, if_true] at hn
      have := ih h2 t2 (by rw [List.length_drop]; omega) (by simp; omega) (by omega) he.2 hf.2
      rw [this, List.append_assoc, List.take_append_drop]
    · have hT := hterm h ht
      rw [hT] at h2
      exact stays h2 t2 (by omega) he.2

/-- **C104** (never stuck).  For every open connection there is something that can happen next: while it waits, any bytes
may come, or the end of the stream; while it sends, the operating system may take any part of what is left. -/
theorem C104_never_stuck (env : Ext σ H) {S : Server σ} {c : Nat} :
    (∀ wire, S.conns c = some ⟨.waiting, wire⟩ →
      (S.step env (.eof c)).isSome = true ∧
      ∀ ch raw, raw ≠ [] → raw.length ≤ 10240 → (S.step env (.recv c ch raw)).isSome = true) ∧
    (∀ rest wire, S.conns c = some ⟨.sending rest, wire⟩ →
      ∀ n ≤ rest.length, (S.step env (.sent c n)).isSome = true) := by
  refine ⟨fun wire hc => ⟨?_, fun ch raw h1 h2 => ?_⟩, fun rest wire hc n hn => ?_⟩
  · simp [Server.step, hc]
  · simp only [Server.step, hc]
    rw [if_pos ⟨trivial, h1, h2⟩]
    rfl
  · simp only [Server.step, hc]
    by_cases h : n < rest.length
    · rw [if_pos h]; rfl
    · rw [if_neg h, if_pos (by omega)]; rfl

/-! ## Cases that meet the hypotheses -/

/-- A connection on which the answer to the initialisation is being sent, another that waits. -/
def lifeServer : Server Nat :=
  { host := sampleInited
    conns := fun c => if c = 0 then some ⟨.sending [1, 2, 3, 4, 5], [9]⟩ else if c = 1 then some ⟨.waiting, []⟩
      else if c = 2 then some ⟨.closed, [7]⟩ else none }

/-- C104: a new peer is accepted, a waiting one may go. -/
example : ((lifeServer.step sampleExt (.accept 3)).map fun S => S.conns 3) = some (some ⟨.waiting, []⟩) ∧
    ((lifeServer.step sampleExt (.eof 1)).map fun S => S.conns 1) = some (some ⟨.closed, []⟩) := by decide +kernel

/-- C104: one that sends may not, and a closed one is not accepted again. -/
example : (lifeServer.step sampleExt (.eof 0)).isNone = true ∧ (lifeServer.step sampleExt (.accept 2)).isNone = true ∧
    (lifeServer.step sampleExt (.recv 2 sampleChoice [1])).isNone = true := by decide +kernel

/-- C104: a read after the whole answer was taken in two pieces, with the other connection served in between. -/
example : (lifeServer.run sampleExt ([.sent 0 2, .recv 1 sampleChoice [1, 2, 3], .sent 0 3] ++
    [.recv 0 sampleChoice [1, 2, 3]])).isSome = true ∧
    reads 0 [Event.sent 0 2, .recv 1 sampleChoice [1, 2, 3], .sent (σ := Nat) 0 3] = 0 := by decide +kernel

/-- C104: and the peer has been sent all of it. -/
example : ((lifeServer.run sampleExt [.sent 0 2, .recv 1 sampleChoice [1, 2, 3], .sent 0 3]).map
    fun S => (S.conns 0, S.serving, S.terminating)) = some (some ⟨.waiting, [9, 1, 2, 3, 4, 5]⟩, true, false) := by
  decide +kernel

/-- C104: without the failed send a read in the middle of an answer is impossible. -/
example : (lifeServer.run sampleExt ([.sent 0 2] ++ [.recv 0 sampleChoice [1, 2, 3]])).isNone = true := by decide +kernel

def lifeEvents : List (Event Nat) := [.sent 0 2, .recv 1 sampleChoice [1, 2, 3], .sent 0 3]
def lifeAfter : Server Nat := (lifeServer.run sampleExt lifeEvents).get (by decide +kernel)
def lifeAfter2 : Server Nat :=
  (lifeServer.run sampleExt (lifeEvents ++ [.recv 0 sampleChoice [1, 2, 3]])).get (by decide +kernel)
theorem life_run : lifeServer.run sampleExt lifeEvents = some lifeAfter := (Option.some_get _).symm
theorem life_run2 : lifeServer.run sampleExt (lifeEvents ++ [.recv 0 sampleChoice [1, 2, 3]]) = some lifeAfter2 :=
  (Option.some_get _).symm

example := C104_accepts sampleExt (S := lifeServer) (c := 3) rfl rfl rfl
example := C104_hang_up sampleExt (S := lifeServer) (c := 1) (wire := []) rfl
example := C104_closed_for_good sampleExt (S := lifeServer) (c := 2) (wire := [7]) rfl life_run
example := C104_reads_wait sampleExt (S := lifeServer) (c := 0) (rest := [1, 2, 3, 4, 5]) (wire := [9]) rfl
  (by decide +kernel) (by unfold lifeEvents; nofun) life_run2
example := C104_send_completes sampleExt (S := lifeServer) (c := 0) (rest := [1, 2, 3, 4, 5]) (wire := [9]) rfl life_run
  (by decide +kernel) (by decide) (by decide +kernel) (by unfold lifeEvents; nofun) (by unfold lifeEvents; nofun)
  (by decide +kernel) (by decide +kernel)

end Verif
