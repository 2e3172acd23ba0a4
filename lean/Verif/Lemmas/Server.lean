import Verif.Spec.Server
import Verif.Lemmas.HostInv
/-! Lemmas about the server loop. -/

namespace Verif
open Py

variable {σ H : Type}

theorem setConn_same (S : Server σ) (c : Nat) (k : Conn) : (S.setConn c k).conns c = some k := by
  simp [Server.setConn]

theorem setConn_other (S : Server σ) {c d : Nat} (k : Conn) (h : d ≠ c) : (S.setConn c k).conns d = S.conns d := by
  simp [Server.setConn, h]

theorem passDone_host (S : Server σ) (c : Nat) (k : Conn) : (S.passDone c k).host = S.host := by
  unfold Server.passDone Server.setConn; split <;> rfl

theorem passDone_terminating (S : Server σ) (c : Nat) (k : Conn) : (S.passDone c k).terminating = S.terminating := by
  unfold Server.passDone Server.setConn; split <;> rfl

theorem passDone_serving (S : Server σ) (c : Nat) (k : Conn) : (S.passDone c k).serving = S.serving := by
  unfold Server.passDone Server.setConn; split <;> rfl

theorem passDone_same (S : Server σ) (c : Nat) (k : Conn) :
    (S.passDone c k).conns c = some { k with phase := if S.terminating then .closed else .waiting } := by
  unfold Server.passDone Server.setConn; split <;> simp [*]

theorem passDone_other (S : Server σ) {c d : Nat} (k : Conn) (h : d ≠ c) :
    (S.passDone c k).conns d = S.conns d := by
  unfold Server.passDone Server.setConn; split <;> simp [h]

theorem handle_host (env : Ext σ H) (S : Server σ) (c : Nat) (k : Conn) (ch : Choice) (raw : Bytes) :
    (S.handle env c k ch raw).host = (onInput env ch S.host raw).1 := by
  unfold Server.handle
  dsimp only
  split
  · rw [passDone_host]
  · rw [passDone_host]
  · rfl

theorem handle_terminating (env : Ext σ H) (S : Server σ) (c : Nat) (k : Conn) (ch : Choice) (raw : Bytes) :
    (S.handle env c k ch raw).terminating = S.terminating := by
  unfold Server.handle
  dsimp only
  split
  · rw [passDone_terminating]
  · rw [passDone_terminating]
  · rfl

theorem handle_serving (env : Ext σ H) (S : Server σ) (c : Nat) (k : Conn) (ch : Choice) (raw : Bytes) :
    (S.handle env c k ch raw).serving = S.serving := by
  unfold Server.handle
  dsimp only
  split
  · rw [passDone_serving]
  · rw [passDone_serving]
  · rfl

theorem handle_other (env : Ext σ H) (S : Server σ) {c d : Nat} (k : Conn) (ch : Choice) (raw : Bytes)
    (h : d ≠ c) : (S.handle env c k ch raw).conns d = S.conns d := by
  unfold Server.handle
  dsimp only
  split
  · rw [passDone_other _ _ h]
  · rw [passDone_other _ _ h]
  · exact setConn_other _ _ h

/-- The connection after one read: sending the answer, or (nothing to send) at the end of the pass. -/
theorem handle_same (env : Ext σ H) (S : Server σ) (c : Nat) (k : Conn) (ch : Choice) (raw : Bytes) :
    (∃ out, (onInput env ch S.host raw).2 = .ok (some out) ∧
      (S.handle env c k ch raw).conns c = some { k with phase := .sending out }) ∨
    (answer env ch S.host raw = [] ∧
      (S.handle env c k ch raw).conns c = some { k with phase := if S.terminating then .closed else .waiting }) := by
  unfold Server.handle answer
  dsimp only
  split
  · right; exact ⟨by simp [*], by rw [passDone_same]⟩
  · right; exact ⟨by simp [*], by rw [passDone_same]⟩
  · next data h => left; exact ⟨data, h, setConn_same _ _ _⟩

theorem run_append (env : Ext σ H) (S : Server σ) (es fs : List (Event σ)) :
    S.run env (es ++ fs) = (S.run env es).bind fun S' => S'.run env fs := by
  induction es generalizing S with
  | nil => rfl
  | cons e es ih =>
    simp only [List.cons_append, Server.run]
    cases S.step env e with
    | none => rfl
    | some S' => exact ih S'

theorem run_cons {env : Ext σ H} {S S' : Server σ} {e : Event σ} {es : List (Event σ)}
    (h : S.run env (e :: es) = some S') : ∃ T, S.step env e = some T ∧ T.run env es = some S' := by
  simpa [Server.run] using Option.bind_eq_some_iff.1 h

/-- One event handled: the host is as in the sequential server. -/
theorem step_host {env : Ext σ H} {S S' : Server σ} {e : Event σ} (h : S.step env e = some S') :
    S'.host = hostAfter env S.host [e] := by
  cases e with
  | accept c =>
    simp only [Server.step] at h
    split at h
    · simp only [Option.some.injEq] at h
      subst h
      split <;> rfl
    · simp at h
  | recv c ch raw =>
    simp only [Server.step] at h
    split at h
    · split at h
      · simp only [Option.some.injEq] at h
        subst h
        rw [handle_host]; rfl
      · simp at h
    · simp at h
  | sent c n =>
    simp only [Server.step] at h
    split at h
    · split at h
      · split at h
        · simp only [Option.some.injEq] at h; subst h; rfl
        · split at h
          · simp only [Option.some.injEq] at h; subst h; rw [passDone_host]; rfl
          · simp at h
      · simp at h
    · simp at h
  | sendFail c =>
    simp only [Server.step] at h
    split at h
    · split at h
      · simp only [Option.some.injEq] at h; subst h; rw [passDone_host]; rfl
      · simp at h
    · simp at h
  | eof c =>
    simp only [Server.step] at h
    split at h
    · split at h
      · simp only [Option.some.injEq] at h; subst h; rfl
      · simp at h
    · simp at h
  | other n d x =>
    simp only [Server.step] at h
    split at h
    · simp only [Option.some.injEq] at h; subst h; rfl
    · simp at h
  | stop => simp only [Server.step, Option.some.injEq] at h; subst h; rfl
  | cancelled =>
    simp only [Server.step] at h
    split at h
    · simp only [Option.some.injEq] at h; subst h; rfl
    · simp at h
  | acceptFail =>
    simp only [Server.step] at h
    split at h
    · simp only [Option.some.injEq] at h; subst h; rfl
    · simp at h

theorem hostAfter_cons (env : Ext σ H) (s : Host σ) (e : Event σ) (es : List (Event σ)) :
    hostAfter env s (e :: es) = hostAfter env (hostAfter env s [e]) es := by
  cases e <;> rfl

theorem answersTo_cons (env : Ext σ H) (c : Nat) (s : Host σ) (e : Event σ) (es : List (Event σ)) :
    answersTo env c s (e :: es) = answersTo env c s [e] ++ answersTo env c (hostAfter env s [e]) es := by
  cases e with
  | recv d ch raw => simp only [answersTo, hostAfter]; split <;> rfl
  | _ => rfl

theorem run_host {env : Ext σ H} {S S' : Server σ} {es : List (Event σ)} (h : S.run env es = some S') :
    S'.host = hostAfter env S.host es := by
  induction es generalizing S with
  | nil => simp only [Server.run, Option.some.injEq] at h; subst h; rfl
  | cons e es ih =>
    obtain ⟨T, h1, h2⟩ := run_cons h
    rw [ih h2, hostAfter_cons, step_host h1]

/-- What the connection has sent and will send is `acc`. -/
def Owes (S : Server σ) (c : Nat) (acc : Bytes) : Prop :=
  match S.conns c with
  | none => acc = []
  | some ⟨.waiting, wire⟩ => wire = acc
  | some ⟨.sending rest, wire⟩ => wire ++ rest = acc
  | some ⟨.closed, wire⟩ => wire <+: acc

theorem Owes.congr {S S' : Server σ} {c : Nat} {acc : Bytes} (h : Owes S c acc) (e : S'.conns c = S.conns c) :
    Owes S' c acc := by
  unfold Owes at *; rw [e]; exact h

theorem Owes.closed {S S' : Server σ} {c : Nat} {acc : Bytes} (h : Owes S c acc)
    (e : S'.conns c = (S.conns c).map fun k => { k with phase := .closed }) : Owes S' c acc := by
  unfold Owes at *
  rw [e]
  cases hk : S.conns c with
  | none => simp only [hk] at h; exact h
  | some k =>
    obtain ⟨p, w⟩ := k
    rw [hk] at h
    cases p with
    | waiting => simp only at h; subst h; exact List.prefix_refl _
    | sending rest => simp only at h; subst h; exact List.prefix_append _ _
    | closed => exact h

theorem Owes.setPhase {S' : Server σ} {c : Nat} {w acc : Bytes} {b : Bool}
    (e : S'.conns c = some { phase := if b then .closed else .waiting, wire := w })
    (h : w = acc) : Owes S' c acc := by
  unfold Owes; rw [e]; subst h
  cases b
  · rfl
  · exact List.prefix_refl _

theorem step_owes {env : Ext σ H} {S S' : Server σ} {e : Event σ} {c : Nat} {acc : Bytes}
    (h : S.step env e = some S') (hf : e ≠ .sendFail c) (hi : Owes S c acc) :
    Owes S' c (acc ++ (answersTo env c S.host [e]).flatten) := by
  cases e with
  | accept d =>
    simp only [answersTo, List.flatten_nil, List.append_nil]
    simp only [Server.step] at h
    split at h
    · next hn =>
      simp only [Option.some.injEq] at h
      have h1 : Owes (S.setConn d {}) c acc := by
        by_cases hd : c = d
        · subst hd
          have : acc = [] := by simpa [Owes, hn.2] using hi
          subst this
          simp [Owes, setConn_same]
        · exact hi.congr (setConn_other _ _ hd)
      subst h
      split
      · exact h1.closed rfl
      · exact h1
    · simp at h
  | recv d ch raw =>
    simp only [Server.step] at h
    split at h
    · next k hk =>
      split at h
      · next hw =>
        simp only [Option.some.injEq] at h
        subst h
        by_cases hd : c = d
        · subst hd
          obtain ⟨p, w⟩ := k
          have hp := hw.1
          simp only at hp
          subst hp
          have hacc : w = acc := by simpa [Owes, hk] using hi
          subst hacc
          simp only [answersTo, if_true, List.flatten_cons, List.flatten_nil, List.append_nil]
          rcases handle_same env S c ⟨.waiting, w⟩ ch raw with ⟨out, h1, h2⟩ | ⟨h1, h2⟩
          · unfold Owes answer; rw [h2, h1]
          · rw [h1]
            exact Owes.setPhase h2 (by simp)
        · have : ¬ d = c := fun h => hd h.symm
          simp only [answersTo, this, if_false, List.flatten_nil, List.append_nil]
          exact hi.congr (handle_other _ _ _ _ _ hd)
      · simp at h
    · simp at h
  | sent d n =>
    simp only [answersTo, List.flatten_nil, List.append_nil]
    simp only [Server.step] at h
    split at h
    · next k hk =>
      obtain ⟨p, w⟩ := k
      split at h
      · next rest hp =>
        simp only at hp
        subst hp
        by_cases hd : c = d
        · subst hd
          have hacc : w ++ rest = acc := by simpa [Owes, hk] using hi
          subst hacc
          split at h
          · simp only [Option.some.injEq] at h; subst h
            unfold Owes; rw [setConn_same]
            simp
          · split at h
            · simp only [Option.some.injEq] at h; subst h
              exact Owes.setPhase (passDone_same _ _ _) rfl
            · simp at h
        · split at h
          · simp only [Option.some.injEq] at h; subst h
            exact hi.congr (setConn_other _ _ hd)
          · split at h
            · simp only [Option.some.injEq] at h; subst h
              exact hi.congr (passDone_other _ _ hd)
            · simp at h
      · simp at h
    · simp at h
  | sendFail d =>
    simp only [answersTo, List.flatten_nil, List.append_nil]
    have hd : c ≠ d := fun hc => hf (by rw [hc])
    simp only [Server.step] at h
    split at h
    · split at h
      · simp only [Option.some.injEq] at h; subst h
        exact hi.congr (passDone_other _ _ hd)
      · simp at h
    · simp at h
  | eof d =>
    simp only [answersTo, List.flatten_nil, List.append_nil]
    simp only [Server.step] at h
    split at h
    · next k hk =>
      split at h
      · simp only [Option.some.injEq] at h; subst h
        by_cases hd : c = d
        · subst hd
          exact hi.closed (by rw [setConn_same, hk]; rfl)
        · exact hi.congr (setConn_other _ _ hd)
      · simp at h
    · simp at h
  | other n d x =>
    simp only [answersTo, List.flatten_nil, List.append_nil]
    simp only [Server.step] at h
    split at h
    · simp only [Option.some.injEq] at h; subst h; exact hi
    · simp at h
  | stop =>
    simp only [answersTo, List.flatten_nil, List.append_nil]
    simp only [Server.step, Option.some.injEq] at h; subst h; exact hi
  | cancelled =>
    simp only [answersTo, List.flatten_nil, List.append_nil]
    simp only [Server.step] at h
    split at h
    · simp only [Option.some.injEq] at h; subst h; exact hi.closed rfl
    · simp at h
  | acceptFail =>
    simp only [answersTo, List.flatten_nil, List.append_nil]
    simp only [Server.step] at h
    split at h
    · simp only [Option.some.injEq] at h; subst h; exact hi.closed rfl
    · simp at h

theorem run_owes {env : Ext σ H} {S S' : Server σ} {es : List (Event σ)} {c : Nat} {acc : Bytes}
    (h : S.run env es = some S') (hf : .sendFail c ∉ es) (hi : Owes S c acc) :
    Owes S' c (acc ++ (answersTo env c S.host es).flatten) := by
  induction es generalizing S acc with
  | nil => simp only [Server.run, Option.some.injEq] at h; subst h; simpa [answersTo] using hi
  | cons e es ih =>
    obtain ⟨T, h1, h2⟩ := run_cons h
    simp only [List.mem_cons, not_or] at hf
    have := ih h2 hf.2 (step_owes h1 (fun hh => hf.1 hh.symm) hi)
    rw [answersTo_cons, List.flatten_append, ← List.append_assoc, ← step_host h1]
    exact this

/-- Runs are histories of the host. -/
theorem step_evolves {env : Ext σ H} {S S' : Server σ} {e : Event σ} {s0 : Host σ}
    (h : S.step env e = some S') (ev : Evolves env (fun _ => True) s0 S.host) :
    Evolves env (fun _ => True) s0 S'.host := by
  rw [step_host h]
  cases e with
  | recv c ch raw => exact .input ch raw ev trivial
  | other n d x =>
    simp only [Server.step] at h
    split at h
    · next hn => exact .other n d x ev hn
    · simp at h
  | _ => exact ev

theorem run_evolves {env : Ext σ H} {S S' : Server σ} {es : List (Event σ)} {s0 : Host σ}
    (h : S.run env es = some S') (ev : Evolves env (fun _ => True) s0 S.host) :
    Evolves env (fun _ => True) s0 S'.host := by
  induction es generalizing S with
  | nil => simp only [Server.run, Option.some.injEq] at h; subst h; exact ev
  | cons e es ih =>
    obtain ⟨T, h1, h2⟩ := run_cons h
    exact ih h2 (step_evolves h1 ev)

/-- What ends a connection (besides the peer). -/
def Alive (S : Server σ) (c : Nat) : Prop :=
  S.terminating = false ∧ S.cancelling = false ∧ S.serving = true ∧ ∀ k, S.conns c = some k → k.phase ≠ .closed

theorem passDone_alive {S : Server σ} {c d : Nat} {k : Conn} (h : Alive S c) : Alive (S.passDone d k) c := by
  obtain ⟨h1, h2, h3, h4⟩ := h
  refine ⟨by rw [passDone_terminating]; exact h1, ?_, by rw [passDone_serving]; exact h3, ?_⟩
  · unfold Server.passDone; rw [if_neg (by simp [h1])]; exact h2
  · by_cases hd : c = d
    · subst hd; rw [passDone_same]; rintro k' ⟨⟩; simp [h1]
    · rw [passDone_other _ _ hd]; exact h4

theorem setConn_alive {S : Server σ} {c d : Nat} {k : Conn} (h : Alive S c) (hk : k.phase ≠ .closed) :
    Alive (S.setConn d k) c := by
  obtain ⟨h1, h2, h3, h4⟩ := h
  refine ⟨h1, h2, h3, ?_⟩
  by_cases hd : c = d
  · subst hd; rw [setConn_same]; rintro k' ⟨⟩; exact hk
  · rw [setConn_other _ _ hd]; exact h4

theorem step_alive {env : Ext σ H} {S S' : Server σ} {e : Event σ} {c : Nat}
    (h : S.step env e = some S') (hi : Alive S c) (h1 : e ≠ .eof c) (h2 : e ≠ .stop)
    (h3 : e ≠ .acceptFail) : Alive S' c := by
  obtain ⟨i1, i2, i3, i4⟩ := hi
  cases e with
  | accept d =>
    simp only [Server.step] at h
    split at h
    · simp only [Option.some.injEq] at h; subst h
      rw [if_neg (by simp [Server.setConn, i1])]
      exact setConn_alive ⟨i1, i2, i3, i4⟩ (by simp)
    · simp at h
  | recv d ch raw =>
    simp only [Server.step] at h
    split at h
    · next k hk =>
      split at h
      · simp only [Option.some.injEq] at h; subst h
        unfold Server.handle
        dsimp only
        split
        · exact passDone_alive ⟨i1, i2, i3, i4⟩
        · exact passDone_alive ⟨i1, i2, i3, i4⟩
        · exact setConn_alive ⟨i1, i2, i3, i4⟩ (by simp)
      · simp at h
    · simp at h
  | sent d n =>
    simp only [Server.step] at h
    split at h
    · split at h
      · split at h
        · simp only [Option.some.injEq] at h; subst h
          exact setConn_alive ⟨i1, i2, i3, i4⟩ (by simp)
        · split at h
          · simp only [Option.some.injEq] at h; subst h
            exact passDone_alive ⟨i1, i2, i3, i4⟩
          · simp at h
      · simp at h
    · simp at h
  | sendFail d =>
    simp only [Server.step] at h
    split at h
    · split at h
      · simp only [Option.some.injEq] at h; subst h
        exact passDone_alive ⟨i1, i2, i3, i4⟩
      · simp at h
    · simp at h
  | eof d =>
    have hd : c ≠ d := fun hc => h1 (by rw [hc])
    simp only [Server.step] at h
    split at h
    · split at h
      · simp only [Option.some.injEq] at h; subst h
        exact ⟨i1, i2, i3, by rw [setConn_other _ _ hd]; exact i4⟩
      · simp at h
    · simp at h
  | other n d x =>
    simp only [Server.step] at h
    split at h
    · simp only [Option.some.injEq] at h; subst h; exact ⟨i1, i2, i3, i4⟩
    · simp at h
  | stop => exact absurd rfl h2
  | cancelled =>
    simp only [Server.step] at h
    rw [if_neg (by simp [i2])] at h
    simp at h
  | acceptFail => exact absurd rfl h3

theorem run_alive {env : Ext σ H} {S S' : Server σ} {es : List (Event σ)} {c : Nat}
    (h : S.run env es = some S') (hi : Alive S c) (h1 : .eof c ∉ es) (h2 : .stop ∉ es) (h3 : .acceptFail ∉ es) :
    Alive S' c := by
  induction es generalizing S with
  | nil => simp only [Server.run, Option.some.injEq] at h; subst h; exact hi
  | cons e es ih =>
    obtain ⟨T, t1, t2⟩ := run_cons h
    simp only [List.mem_cons, not_or] at h1 h2 h3
    exact ih t2 (step_alive t1 hi (fun hh => h1.1 hh.symm) (fun hh => h2.1 hh.symm) (fun hh => h3.1 hh.symm)) h1.2 h2.2 h3.2

/-- Connections exist for ever. -/
theorem step_exists {env : Ext σ H} {S S' : Server σ} {e : Event σ} {c : Nat}
    (h : S.step env e = some S') (hi : S.conns c ≠ none) : S'.conns c ≠ none := by
  have hset : ∀ (T : Server σ) d k, T.conns c ≠ none → (T.setConn d k).conns c ≠ none := by
    intro T d k hT
    by_cases hd : c = d
    · subst hd; rw [setConn_same]; simp
    · rw [setConn_other _ _ hd]; exact hT
  have hpass : ∀ (T : Server σ) d k, T.conns c ≠ none → (T.passDone d k).conns c ≠ none := by
    intro T d k hT
    by_cases hd : c = d
    · subst hd; rw [passDone_same]; simp
    · rw [passDone_other _ _ hd]; exact hT
  have hshut : ∀ (T : Server σ), T.conns c ≠ none → T.shutdown.conns c ≠ none := by
    intro T hT
    simpa [Server.shutdown] using hT
  cases e with
  | accept d =>
    simp only [Server.step] at h
    split at h
    · simp only [Option.some.injEq] at h; subst h
      split
      · exact hshut _ (hset _ _ _ hi)
      · exact hset _ _ _ hi
    · simp at h
  | recv d ch raw =>
    simp only [Server.step] at h
    split at h
    · split at h
      · simp only [Option.some.injEq] at h; subst h
        unfold Server.handle
        dsimp only
        split
        · exact hpass _ _ _ hi
        · exact hpass _ _ _ hi
        · exact hset _ _ _ hi
      · simp at h
    · simp at h
  | sent d n =>
    simp only [Server.step] at h
    split at h
    · split at h
      · split at h
        · simp only [Option.some.injEq] at h; subst h; exact hset _ _ _ hi
        · split at h
          · simp only [Option.some.injEq] at h; subst h; exact hpass _ _ _ hi
          · simp at h
      · simp at h
    · simp at h
  | sendFail d =>
    simp only [Server.step] at h
    split at h
    · split at h
      · simp only [Option.some.injEq] at h; subst h; exact hpass _ _ _ hi
      · simp at h
    · simp at h
  | eof d =>
    simp only [Server.step] at h
    split at h
    · split at h
      · simp only [Option.some.injEq] at h; subst h; exact hset _ _ _ hi
      · simp at h
    · simp at h
  | other n d x =>
    simp only [Server.step] at h
    split at h
    · simp only [Option.some.injEq] at h; subst h; exact hi
    · simp at h
  | stop => simp only [Server.step, Option.some.injEq] at h; subst h; exact hi
  | cancelled =>
    simp only [Server.step] at h
    split at h
    · simp only [Option.some.injEq] at h; subst h; exact hshut _ hi
    · simp at h
  | acceptFail =>
    simp only [Server.step] at h
    split at h
    · simp only [Option.some.injEq] at h; subst h; exact hshut _ hi
    · simp at h

theorem run_exists {env : Ext σ H} {S S' : Server σ} {es : List (Event σ)} {c : Nat}
    (h : S.run env es = some S') (hi : S.conns c ≠ none) : S'.conns c ≠ none := by
  induction es generalizing S with
  | nil => simp only [Server.run, Option.some.injEq] at h; subst h; exact hi
  | cons e es ih =>
    obtain ⟨T, t1, t2⟩ := run_cons h
    exact ih t2 (step_exists t1 hi)

theorem step_not_stopping {env : Ext σ H} {S S' : Server σ} {e : Event σ} (h : S.step env e = some S')
    (he : e ≠ .stop) (hf : e ≠ .acceptFail) (h1 : S.terminating = false) (h2 : S.cancelling = false) (h3 : S.serving = true) :
    S'.terminating = false ∧ S'.cancelling = false ∧ S'.serving = true := by
  have hpass : ∀ (T : Server σ) d k, T.terminating = false → T.cancelling = false → T.serving = true →
      (T.passDone d k).terminating = false ∧ (T.passDone d k).cancelling = false ∧
        (T.passDone d k).serving = true := by
    intro T d k t1 t2 t3
    unfold Server.passDone
    rw [if_neg (by simp [t1])]
    exact ⟨t1, t2, t3⟩
  cases e with
  | accept d =>
    simp only [Server.step] at h
    split at h
    · simp only [Option.some.injEq] at h; subst h
      rw [if_neg (by simp [Server.setConn, h1])]
      exact ⟨h1, h2, h3⟩
    · simp at h
  | recv d ch raw =>
    simp only [Server.step] at h
    split at h
    · split at h
      · simp only [Option.some.injEq] at h; subst h
        unfold Server.handle
        dsimp only
        split
        · exact hpass _ _ _ h1 h2 h3
        · exact hpass _ _ _ h1 h2 h3
        · exact ⟨h1, h2, h3⟩
      · simp at h
    · simp at h
  | sent d n =>
    simp only [Server.step] at h
    split at h
    · split at h
      · split at h
        · simp only [Option.some.injEq] at h; subst h; exact ⟨h1, h2, h3⟩
        · split at h
          · simp only [Option.some.injEq] at h; subst h; exact hpass _ _ _ h1 h2 h3
          · simp at h
      · simp at h
    · simp at h
  | sendFail d =>
    simp only [Server.step] at h
    split at h
    · split at h
      · simp only [Option.some.injEq] at h; subst h; exact hpass _ _ _ h1 h2 h3
      · simp at h
    · simp at h
  | eof d =>
    simp only [Server.step] at h
    split at h
    · split at h
      · simp only [Option.some.injEq] at h; subst h; exact ⟨h1, h2, h3⟩
      · simp at h
    · simp at h
  | other n d x =>
    simp only [Server.step] at h
    split at h
    · simp only [Option.some.injEq] at h; subst h; exact ⟨h1, h2, h3⟩
    · simp at h
  | stop => exact absurd rfl he
  | cancelled =>
    simp only [Server.step] at h
    rw [if_neg (by simp [h2])] at h
    simp at h
  | acceptFail => exact absurd rfl hf

theorem run_not_stopping {env : Ext σ H} {S S' : Server σ} {es : List (Event σ)} (h : S.run env es = some S')
    (he : .stop ∉ es) (hf : .acceptFail ∉ es) (h1 : S.terminating = false) (h2 : S.cancelling = false) (h3 : S.serving = true) :
    S'.terminating = false ∧ S'.cancelling = false ∧ S'.serving = true := by
  induction es generalizing S with
  | nil => simp only [Server.run, Option.some.injEq] at h; subst h; exact ⟨h1, h2, h3⟩
  | cons e es ih =>
    obtain ⟨T, t1, t2⟩ := run_cons h
    simp only [List.mem_cons, not_or] at he hf
    obtain ⟨k1, k2, k3⟩ := step_not_stopping t1 (fun hh => he.1 hh.symm) (fun hh => hf.1 hh.symm) h1 h2 h3
    exact ih t2 he.2 hf.2 k1 k2 k3

/-- How many chunks a connection can still read once the server has been asked to stop. -/
def readsLeft (S : Server σ) (c : Nat) : Nat :=
  match S.conns c with
  | some ⟨.waiting, _⟩ => 1
  | _ => 0

theorem readsLeft_closed {S : Server σ} {c : Nat} {w : Bytes} (h : S.conns c = some ⟨.closed, w⟩) :
    readsLeft S c = 0 := by unfold readsLeft; rw [h]

theorem readsLeft_congr {S S' : Server σ} {c : Nat} (h : S'.conns c = S.conns c) :
    readsLeft S' c = readsLeft S c := by unfold readsLeft; rw [h]

theorem readsLeft_shutdown (S : Server σ) (c : Nat) : readsLeft S.shutdown c = 0 := by
  unfold readsLeft Server.shutdown
  simp only
  cases S.conns c <;> rfl

theorem step_stopping {env : Ext σ H} {S S' : Server σ} {e : Event σ} (h : S.step env e = some S')
    (ht : S.terminating = true) : S'.terminating = true ∧
      accepts [e] + (if S'.serving then 1 else 0) ≤ (if S.serving then 1 else 0) ∧
      ∀ c, reads c [e] + readsLeft S' c ≤ readsLeft S c := by
  have hpass : ∀ (T : Server σ) d (k : Conn) c, T.terminating = true → T.serving = S.serving → T.conns = S.conns →
      readsLeft (T.passDone d k) c ≤ readsLeft S c ∧ (c = d → readsLeft (T.passDone d k) c = 0) := by
    intro T d k c t1 t2 t3
    by_cases hd : c = d
    · subst hd
      have : readsLeft (T.passDone c k) c = 0 :=
        readsLeft_closed (w := k.wire) (by rw [passDone_same, t1]; rfl)
      omega
    · rw [readsLeft_congr (S := S) (by rw [passDone_other _ _ hd, t3])]
      exact ⟨le_refl _, fun h => absurd h hd⟩
  cases e with
  | accept d =>
    simp only [Server.step] at h
    split at h
    · next hn =>
      simp only [Option.some.injEq] at h; subst h
      rw [if_pos (by exact ht)]
      refine ⟨ht, by simp [accepts, Server.shutdown, hn.1], fun c => ?_⟩
      rw [readsLeft_shutdown]; simp [reads]
    · simp at h
  | recv d ch raw =>
    simp only [Server.step] at h
    split at h
    · next k hk =>
      split at h
      · next hw =>
        simp only [Option.some.injEq] at h; subst h
        refine ⟨(handle_terminating _ _ _ _ _ _).trans ht, by rw [handle_serving]; simp [accepts], fun c => ?_⟩
        by_cases hd : c = d
        · subst hd
          obtain ⟨p, w⟩ := k
          have hp := hw.1
          simp only at hp
          subst hp
          have h1 : readsLeft S c = 1 := by unfold readsLeft; rw [hk]
          have h0 : readsLeft (S.handle env c ⟨.waiting, w⟩ ch raw) c = 0 := by
            rcases handle_same env S c ⟨.waiting, w⟩ ch raw with ⟨o, _, h2⟩ | ⟨_, h2⟩
            · unfold readsLeft; rw [h2]
            · exact readsLeft_closed (w := w) (by rw [h2, ht]; rfl)
          rw [h0, h1]; simp [reads]
        · rw [readsLeft_congr (handle_other _ _ _ _ _ hd)]
          have : ¬ d = c := fun h => hd h.symm
          simp [reads, this]
      · simp at h
    · simp at h
  | sent d n =>
    simp only [Server.step] at h
    split at h
    · next k hk =>
      split at h
      · next rest hp =>
        split at h
        · simp only [Option.some.injEq] at h; subst h
          refine ⟨ht, by simp only [accepts, Nat.zero_add]; exact Nat.le_refl _, fun c => ?_⟩
          by_cases hd : c = d
          · subst hd
            have : readsLeft (S.setConn c ⟨.sending (rest.drop n), k.wire ++ rest.take n⟩) c = 0 := by
              unfold readsLeft; rw [setConn_same]
            rw [this]; simp [reads]
          · rw [readsLeft_congr (setConn_other _ _ hd)]; simp [reads]
        · split at h
          · simp only [Option.some.injEq] at h; subst h
            refine ⟨by rw [passDone_terminating]; exact ht, by rw [passDone_serving]; simp [accepts], fun c => ?_⟩
            have := (hpass S d ⟨.sending [], k.wire ++ rest⟩ c ht rfl rfl).1
            simpa [reads] using this
          · simp at h
      · simp at h
    · simp at h
  | sendFail d =>
    simp only [Server.step] at h
    split at h
    · next k hk =>
      split at h
      · simp only [Option.some.injEq] at h; subst h
        refine ⟨by rw [passDone_terminating]; exact ht, by rw [passDone_serving]; simp [accepts], fun c => ?_⟩
        have := (hpass S d k c ht rfl rfl).1
        simpa [reads] using this
      · simp at h
    · simp at h
  | eof d =>
    simp only [Server.step] at h
    split at h
    · next k hk =>
      split at h
      · simp only [Option.some.injEq] at h; subst h
        refine ⟨ht, by simp only [accepts, Nat.zero_add]; exact Nat.le_refl _, fun c => ?_⟩
        by_cases hd : c = d
        · subst hd
          rw [readsLeft_closed (w := k.wire) (setConn_same _ _ _)]; simp [reads]
        · rw [readsLeft_congr (setConn_other _ _ hd)]; simp [reads]
      · simp at h
    · simp at h
  | other n d x =>
    simp only [Server.step] at h
    split at h
    · simp only [Option.some.injEq] at h; subst h
      refine ⟨ht, by simp only [accepts, Nat.zero_add]; exact Nat.le_refl _, fun c => ?_⟩
      simp only [reads, Nat.zero_add]; exact Nat.le_refl _
    · simp at h
  | stop =>
    simp only [Server.step, Option.some.injEq] at h; subst h
    refine ⟨rfl, by simp only [accepts, Nat.zero_add]; exact Nat.le_refl _, fun c => ?_⟩
    simp only [reads, Nat.zero_add]; exact Nat.le_refl _
  | cancelled =>
    simp only [Server.step] at h
    split at h
    · simp only [Option.some.injEq] at h; subst h
      refine ⟨rfl, by simp [accepts, Server.shutdown], fun c => ?_⟩
      rw [readsLeft_shutdown]; simp [reads]
    · simp at h
  | acceptFail =>
    simp only [Server.step] at h
    split at h
    · simp only [Option.some.injEq] at h; subst h
      refine ⟨ht, by simp [accepts, Server.shutdown], fun c => ?_⟩
      rw [readsLeft_shutdown]; simp [reads]
    · simp at h

theorem accepts_cons (e : Event σ) (es : List (Event σ)) : accepts (e :: es) = accepts [e] + accepts es := by
  cases e <;> simp [accepts]

theorem reads_cons (c : Nat) (e : Event σ) (es : List (Event σ)) : reads c (e :: es) = reads c [e] + reads c es := by
  cases e <;> simp [reads]

theorem run_stopping_aux {env : Ext σ H} {S S' : Server σ} {es : List (Event σ)} (h : S.run env es = some S')
    (ht : S.terminating = true) : accepts es ≤ (if S.serving then 1 else 0) ∧ ∀ c, reads c es ≤ readsLeft S c := by
  induction es generalizing S with
  | nil => simp [accepts, reads]
  | cons e es ih =>
    obtain ⟨T, t1, t2⟩ := run_cons h
    obtain ⟨k1, k2, k3⟩ := step_stopping t1 ht
    obtain ⟨i1, i2⟩ := ih t2 k1
    refine ⟨by rw [accepts_cons]; omega, fun c => ?_⟩
    have := k3 c
    have := i2 c
    rw [reads_cons]; omega

theorem run_stopping {env : Ext σ H} {S S' : Server σ} {es : List (Event σ)} (h : S.run env es = some S')
    (ht : S.terminating = true) : accepts es ≤ 1 ∧ ∀ c, reads c es ≤ 1 := by
  obtain ⟨h1, h2⟩ := run_stopping_aux h ht
  refine ⟨?_, fun c => (h2 c).trans ?_⟩
  · split at h1 <;> omega
  · unfold readsLeft; split <;> omega

end Verif
