import Verif.Spec.Within
import Verif.Props.Process
import Verif.Props.Server
import Verif.Props.Lifecycle
/-!
# C124, C125: hosts in a larger program
-/

namespace Verif
open Py

variable {σ H : Type}

/-! ## One host -/

/-- The events that end or feed the accept loop; all others are as under `run`. -/
def Event.loop : Event σ → Bool
  | .accept _ => true
  | .cancelled => true
  | .acceptFail => true
  | _ => false

theorem within_step {env : Ext σ H} {S : Server σ} {e : Event σ} (he : e.loop = false) :
    S.within env (.event e) = S.step env e := by
  cases e <;> first | rfl | cases he

/-- What the other events leave alone. -/
theorem step_common {env : Ext σ H} {S S' : Server σ} {e : Event σ} (h : S.step env e = some S') (he : e.loop = false) :
    S'.serving = S.serving ∧ (∀ c, S.conns c = none → S'.conns c = none) ∧
    (S'.terminating = S.terminating ∨ e = .stop ∧ S'.terminating = true) := by
  cases e with
  | accept d => cases he
  | cancelled => cases he
  | acceptFail => cases he
  | recv d ch raw =>
    simp only [Server.step] at h
    split at h
    · next k hk =>
      split at h
      · simp only [Option.some.injEq] at h; subst h
        refine ⟨handle_serving _ _ _ _ _ _, fun c hc => ?_, .inl (handle_terminating _ _ _ _ _ _)⟩
        have hd : c ≠ d := by rintro rfl; rw [hk] at hc; cases hc
        rw [handle_other _ _ _ _ _ hd]; exact hc
      · simp at h
    · simp at h
  | sent d n =>
    simp only [Server.step] at h
    split at h
    · next k hk =>
      split at h
      · split at h
        · simp only [Option.some.injEq] at h; subst h
          refine ⟨rfl, fun c hc => ?_, .inl rfl⟩
          have hd : c ≠ d := by rintro rfl; rw [hk] at hc; cases hc
          rw [setConn_other _ _ hd]; exact hc
        · split at h
          · simp only [Option.some.injEq] at h; subst h
            refine ⟨passDone_serving _ _ _, fun c hc => ?_, .inl (passDone_terminating _ _ _)⟩
            have hd : c ≠ d := by rintro rfl; rw [hk] at hc; cases hc
            rw [passDone_other _ _ hd]; exact hc
          · simp at h
      · simp at h
    · simp at h
  | sendFail d =>
    simp only [Server.step] at h
    split at h
    · next k hk =>
      split at h
      · simp only [Option.some.injEq] at h; subst h
        refine ⟨passDone_serving _ _ _, fun c hc => ?_, .inl (passDone_terminating _ _ _)⟩
        have hd : c ≠ d := by rintro rfl; rw [hk] at hc; cases hc
        rw [passDone_other _ _ hd]; exact hc
      · simp at h
    · simp at h
  | eof d =>
    simp only [Server.step] at h
    split at h
    · next k hk =>
      split at h
      · simp only [Option.some.injEq] at h; subst h
        refine ⟨rfl, fun c hc => ?_, .inl rfl⟩
        have hd : c ≠ d := by rintro rfl; rw [hk] at hc; cases hc
        rw [setConn_other _ _ hd]; exact hc
      · simp at h
    · simp at h
  | other n d x =>
    simp only [Server.step] at h
    split at h
    · simp only [Option.some.injEq] at h; subst h; exact ⟨rfl, fun _ => id, .inl rfl⟩
    · simp at h
  | stop =>
    simp only [Server.step, Option.some.injEq] at h; subst h
    exact ⟨rfl, fun _ => id, .inr ⟨rfl, rfl⟩⟩

/-- What the events of the accept loop, and those of the program, do. -/
theorem within_loop {env : Ext σ H} {S S' : Server σ} {w : Within σ} (h : S.within env w = some S')
    (hw : ∀ e, w = .event e → e.loop = true) (hd : ∀ c, w ≠ .drop c) :
    S'.host = S.host ∧ ((∃ c, w = .event (.accept c) ∧ S.serving = true ∧ S.conns c = none ∧ S'.conns = (S.setConn c {}).conns ∧
        S'.terminating = S.terminating ∧ S'.serving = !S.terminating) ∨
      S'.conns = S.conns ∧ (∀ c, w ≠ .event (.accept c)) ∧
        ((w = .event .cancelled ∨ w = .interrupt) ∧ S.serving = true ∧ S'.terminating = true ∧ S'.serving = false ∨
         w = .event .acceptFail ∧ S.serving = true ∧ S'.terminating = S.terminating ∧ S'.serving = false ∨
         ∃ l, w = .again l ∧ S.serving = false ∧ S'.terminating = false ∧ S'.serving = l)) := by
  cases w with
  | drop c => exact absurd rfl (hd c)
  | interrupt =>
    simp only [Server.within] at h
    by_cases hs : S.serving = true
    · rw [if_pos hs] at h; cases h
      exact ⟨rfl, .inr ⟨rfl, nofun, .inl ⟨.inr rfl, hs, rfl, rfl⟩⟩⟩
    · rw [if_neg hs] at h; cases h
  | again l =>
    simp only [Server.within] at h
    by_cases hs : S.serving = true
    · rw [if_pos hs] at h; cases h
    · rw [if_neg hs] at h; cases h
      exact ⟨rfl, .inr ⟨rfl, nofun, .inr (.inr ⟨l, rfl, by simpa using hs, rfl, rfl⟩)⟩⟩
  | event e =>
    have he := hw e rfl
    cases e with
    | accept c =>
      simp only [Server.within] at h
      by_cases hs : S.serving = true ∧ S.conns c = none
      · rw [if_pos hs] at h; cases h
        exact ⟨rfl, .inl ⟨c, rfl, hs.1, hs.2, rfl, rfl, rfl⟩⟩
      · rw [if_neg hs] at h; cases h
    | cancelled =>
      simp only [Server.within] at h
      by_cases hs : S.serving = true ∧ S.cancelling = true
      · rw [if_pos hs] at h; cases h
        exact ⟨rfl, .inr ⟨rfl, nofun, .inl ⟨.inl rfl, hs.1, rfl, rfl⟩⟩⟩
      · rw [if_neg hs] at h; cases h
    | acceptFail =>
      simp only [Server.within] at h
      by_cases hs : S.serving = true
      · rw [if_pos hs] at h; cases h
        exact ⟨rfl, .inr ⟨rfl, nofun, .inr (.inl ⟨rfl, hs, rfl, rfl⟩)⟩⟩
      · rw [if_neg hs] at h; cases h
    | _ => cases he

theorem within_drop {env : Ext σ H} {S S' : Server σ} {c : Nat} (h : S.within env (.drop c) = some S') :
    ∃ k, S.conns c = some k ∧ k.phase ≠ .closed ∧ S' = S.setConn c { k with phase := .closed } := by
  simp only [Server.within] at h
  cases hk : S.conns c with
  | none => rw [hk] at h; cases h
  | some k =>
    rw [hk] at h
    dsimp only at h
    by_cases hp : k.phase = .closed
    · rw [if_pos hp] at h; cases h
    · rw [if_neg hp] at h; cases h; exact ⟨k, rfl, hp, rfl⟩

theorem within_split (w : Within σ) : (∃ e, w = .event e ∧ e.loop = false) ∨ (∃ c, w = .drop c) ∨
    (∀ e, w = .event e → e.loop = true) ∧ ∀ c, w ≠ .drop c := by
  cases w with
  | event e =>
    cases he : e.loop with
    | false => exact .inl ⟨e, rfl, he⟩
    | true => exact .inr (.inr ⟨fun e' h => by cases h; exact he, nofun⟩)
  | drop c => exact .inr (.inl ⟨c, rfl⟩)
  | _ => exact .inr (.inr ⟨nofun, nofun⟩)

theorem withins_cons {env : Ext σ H} {S S' : Server σ} {w : Within σ} {ws : List (Within σ)}
    (h : S.withins env (w :: ws) = some S') : ∃ T, S.within env w = some T ∧ T.withins env ws = some S' := by
  simpa [Server.withins] using Option.bind_eq_some_iff.1 h

theorem withins_append {env : Ext σ H} {S T U : Server σ} {ws vs : List (Within σ)} (h : S.withins env ws = some T)
    (h' : T.withins env vs = some U) : S.withins env (ws ++ vs) = some U := by
  induction ws generalizing S with
  | nil => cases h; exact h'
  | cons w ws ih =>
    obtain ⟨V, h1, h2⟩ := withins_cons h
    simp only [List.cons_append, Server.withins, h1, Option.bind_some]
    exact ih h2

theorem events_cons (w : Within σ) (ws : List (Within σ)) : events (w :: ws) = events [w] ++ events ws := by
  cases w <;> rfl

theorem loop_silent (env : Ext σ H) (s : Host σ) {w : Within σ} (hw : ∀ e, w = .event e → e.loop = true) :
    hostAfter env s (events [w]) = s ∧ (∀ c, answersTo env c s (events [w]) = []) ∧ ∀ c, reads c (events [w]) = 0 := by
  cases w with
  | event e =>
    have he := hw e rfl
    cases e <;> first | exact ⟨rfl, fun _ => rfl, fun _ => rfl⟩ | cases he
  | _ => exact ⟨rfl, fun _ => rfl, fun _ => rfl⟩

theorem hostAfter_append (env : Ext σ H) (s : Host σ) (es fs : List (Event σ)) :
    hostAfter env s (es ++ fs) = hostAfter env (hostAfter env s es) fs := by
  induction es generalizing s with
  | nil => rfl
  | cons e es ih => rw [List.cons_append, hostAfter_cons, ih, ← hostAfter_cons]

theorem answersTo_append (env : Ext σ H) (c : Nat) (s : Host σ) (es fs : List (Event σ)) :
    answersTo env c s (es ++ fs) = answersTo env c s es ++ answersTo env c (hostAfter env s es) fs := by
  induction es generalizing s with
  | nil => rfl
  | cons e es ih =>
    rw [List.cons_append, answersTo_cons, ih, answersTo_cons env c s e es, hostAfter_cons env s e es, List.append_assoc]

theorem within_host {env : Ext σ H} {S S' : Server σ} {w : Within σ} (h : S.within env w = some S') :
    S'.host = hostAfter env S.host (events [w]) := by
  rcases within_split w with ⟨e, rfl, he⟩ | ⟨c, rfl⟩ | ⟨hw, hd⟩
  · rw [within_step he] at h; exact step_host h
  · obtain ⟨k, -, -, rfl⟩ := within_drop h; rfl
  · rw [(within_loop h hw hd).1, (loop_silent env S.host hw).1]

/-- C124: whatever the schedule, the host's state is that of the sequential server: the chunks handled one after another in the order in
which they were read. -/
theorem C124_sequential (env : Ext σ H) {S S' : Server σ} {ws : List (Within σ)} (h : S.withins env ws = some S') :
    S'.host = hostAfter env S.host (events ws) := by
  induction ws generalizing S with
  | nil => cases h; rfl
  | cons w ws ih =>
    obtain ⟨T, h1, h2⟩ := withins_cons h
    rw [ih h2, within_host h1, events_cons w ws, hostAfter_append]

theorem within_owes {env : Ext σ H} {S S' : Server σ} {w : Within σ} {c : Nat} {acc : Bytes}
    (h : S.within env w = some S') (hf : w ≠ .event (.sendFail c)) (hi : Owes S c acc) :
    Owes S' c (acc ++ (answersTo env c S.host (events [w])).flatten) := by
  rcases within_split w with ⟨e, rfl, he⟩ | ⟨d, rfl⟩ | ⟨hw, hdr⟩
  · rw [within_step he] at h
    exact step_owes h (fun hc => hf (by rw [hc])) hi
  · obtain ⟨k, hk, hp, rfl⟩ := within_drop h
    simp only [events, answersTo, List.flatten_nil, List.append_nil]
    by_cases hd : c = d
    · subst hd
      unfold Owes at hi ⊢
      rw [setConn_same]
      rw [hk] at hi
      obtain ⟨ph, w⟩ := k
      cases ph with
      | waiting => dsimp only at hi ⊢; rw [← hi]
      | sending rest => dsimp only at hi ⊢; rw [← hi]; exact List.prefix_append _ _
      | closed => exact absurd rfl hp
    · exact hi.congr (setConn_other _ _ hd)
  · rw [(loop_silent env S.host hw).2.1 c, List.flatten_nil, List.append_nil]
    obtain ⟨-, ⟨d, -, -, hn, hc, -⟩ | ⟨hc, -⟩⟩ := within_loop h hw hdr
    · by_cases hd : c = d
      · subst hd
        have : acc = [] := by simpa [Owes, hn] using hi
        subst this
        unfold Owes; rw [hc, setConn_same]
      · exact hi.congr (by rw [hc, setConn_other _ _ hd])
    · exact hi.congr (by rw [hc])

theorem withins_owes {env : Ext σ H} {S S' : Server σ} {ws : List (Within σ)} {c : Nat} {acc : Bytes}
    (h : S.withins env ws = some S') (hf : .event (.sendFail c) ∉ ws) (hi : Owes S c acc) :
    Owes S' c (acc ++ (answersTo env c S.host (events ws)).flatten) := by
  induction ws generalizing S acc with
  | nil => cases h; simpa [events, answersTo] using hi
  | cons w ws ih =>
    obtain ⟨T, h1, h2⟩ := withins_cons h
    simp only [List.mem_cons, not_or] at hf
    have := ih h2 hf.2 (within_owes h1 (fun hh => hf.1 hh.symm) hi)
    rw [events_cons, answersTo_append, List.flatten_append, ← List.append_assoc, ← within_host h1]
    exact this

/-- C124: what has been sent on a connection together with what its handler is still sending is exactly the answers to the chunks read from
this connection, in order, also after `async_run` has returned, was cancelled, failed or was called again.  (Provided that no send on this
connection failed; on a closed connection what was sent is a prefix.) -/
theorem C124_replies (env : Ext σ H) {s : Host σ} {S : Server σ} {ws : List (Within σ)}
    (h : (Server.start s).withins env ws = some S) (c : Nat) (hf : .event (.sendFail c) ∉ ws) :
    (Open S c → sentOn S c ++ toSend S c = (answersTo env c s (events ws)).flatten) ∧
    sentOn S c <+: (answersTo env c s (events ws)).flatten := by
  have hw := withins_owes h hf (acc := []) (by simp [Owes, Server.start])
  simp only [List.nil_append] at hw
  change Owes S c (answersTo env c s (events ws)).flatten at hw
  unfold Owes at hw
  unfold Open sentOn toSend
  cases hk : S.conns c with
  | none => rw [hk] at hw; simp at hw; simp
  | some k =>
    obtain ⟨p, w⟩ := k
    rw [hk] at hw
    cases p with
    | waiting => simp only at hw; simp [hw]
    | sending rest => simp only at hw; simp [← hw]
    | closed => simp only at hw; simp [hw]

/-- C124: after anything the host is in a reachable state, so that everything that holds of the histories of one host holds of it. -/
theorem C124_reachable (env : Ext σ H) {s : Host σ} {S : Server σ} {ws : List (Within σ)}
    (h : (Server.start s).withins env ws = some S) (hs : Started s) : Reachable env S.host := by
  have key : ∀ (ws : List (Within σ)) (T : Server σ), T.withins env ws = some S → Evolves env (fun _ => True) s T.host →
      Evolves env (fun _ => True) s S.host := by
    intro ws
    induction ws with
    | nil => intro T h ev; cases h; exact ev
    | cons w ws ih =>
      intro T h ev
      obtain ⟨U, h1, h2⟩ := withins_cons h
      refine ih U h2 ?_
      rcases within_split w with ⟨e, rfl, he⟩ | ⟨c, rfl⟩ | ⟨hw, hd⟩
      · rw [within_step he] at h1; exact step_evolves h1 ev
      · obtain ⟨k, -, -, rfl⟩ := within_drop h1; exact ev
      · rw [(within_loop h1 hw hd).1]; exact ev
  exact ⟨s, hs, key ws _ h .refl⟩

/-- The host is not terminating, and the connection is not closed if it exists. -/
def Living (S : Server σ) (c : Nat) : Prop := S.terminating = false ∧ ∀ k, S.conns c = some k → k.phase ≠ .closed

theorem passDone_living {S : Server σ} {c d : Nat} {k : Conn} (h : Living S c) : Living (S.passDone d k) c := by
  obtain ⟨h1, h4⟩ := h
  refine ⟨by rw [passDone_terminating]; exact h1, ?_⟩
  by_cases hd : c = d
  · subst hd; rw [passDone_same]; rintro k' ⟨⟩; simp [h1]
  · rw [passDone_other _ _ hd]; exact h4

theorem setConn_living {S : Server σ} {c d : Nat} {k : Conn} (h : Living S c) (hk : k.phase ≠ .closed) :
    Living (S.setConn d k) c := by
  refine ⟨h.1, ?_⟩
  by_cases hd : c = d
  · subst hd; rw [setConn_same]; rintro k' ⟨⟩; exact hk
  · rw [setConn_other _ _ hd]; exact h.2

theorem step_living {env : Ext σ H} {S S' : Server σ} {e : Event σ} {c : Nat} (h : S.step env e = some S') (hi : Living S c)
    (hl : e.loop = false) (h1 : e ≠ .eof c) (h2 : e ≠ .stop) : Living S' c := by
  cases e with
  | accept d => cases hl
  | cancelled => cases hl
  | acceptFail => cases hl
  | recv d ch raw =>
    simp only [Server.step] at h
    split at h
    · split at h
      · simp only [Option.some.injEq] at h; subst h
        unfold Server.handle
        dsimp only
        split
        · exact passDone_living hi
        · exact passDone_living hi
        · exact setConn_living hi (by simp)
      · simp at h
    · simp at h
  | sent d n =>
    simp only [Server.step] at h
    split at h
    · split at h
      · split at h
        · simp only [Option.some.injEq] at h; subst h; exact setConn_living hi (by simp)
        · split at h
          · simp only [Option.some.injEq] at h; subst h; exact passDone_living hi
          · simp at h
      · simp at h
    · simp at h
  | sendFail d =>
    simp only [Server.step] at h
    split at h
    · split at h
      · simp only [Option.some.injEq] at h; subst h; exact passDone_living hi
      · simp at h
    · simp at h
  | eof d =>
    have hd : c ≠ d := fun hc => h1 (by rw [hc])
    simp only [Server.step] at h
    split at h
    · split at h
      · simp only [Option.some.injEq] at h; subst h
        exact ⟨hi.1, by rw [setConn_other _ _ hd]; exact hi.2⟩
      · simp at h
    · simp at h
  | other n d x =>
    simp only [Server.step] at h
    split at h
    · simp only [Option.some.injEq] at h; subst h; exact hi
    · simp at h
  | stop => exact absurd rfl h2

/-- Nothing is being cancelled. -/
def Uncancelled (S : Server σ) : Prop := S.terminating = false → S.cancelling = false

theorem passDone_uncancelled {S : Server σ} (hi : Uncancelled S) (c : Nat) (k : Conn) : Uncancelled (S.passDone c k) := by
  unfold Uncancelled Server.passDone at *
  cases ht : S.terminating with
  | true => intro hc; rw [if_pos rfl] at hc; simp [Server.setConn, ht] at hc
  | false => simpa [ht, Server.setConn] using hi ht

theorem within_uncancelled {env : Ext σ H} {S S' : Server σ} {w : Within σ} (h : S.within env w = some S') (hi : Uncancelled S) :
    Uncancelled S' := by
  cases w with
  | drop c => obtain ⟨k, -, -, rfl⟩ := within_drop h; exact hi
  | interrupt =>
    simp only [Server.within] at h
    by_cases hs : S.serving = true
    · rw [if_pos hs] at h; cases h; exact fun hc => by cases hc
    · rw [if_neg hs] at h; cases h
  | again l =>
    simp only [Server.within] at h
    by_cases hs : S.serving = true
    · rw [if_pos hs] at h; cases h
    · rw [if_neg hs] at h; cases h; exact fun _ => rfl
  | event e =>
    cases e with
    | accept c =>
      simp only [Server.within] at h
      split at h
      · cases h; exact hi
      · cases h
    | cancelled =>
      simp only [Server.within] at h
      split at h
      · cases h; exact fun hc => by cases hc
      · cases h
    | acceptFail =>
      simp only [Server.within] at h
      split at h
      · cases h; exact hi
      · cases h
    | recv d ch raw =>
      simp only [Server.within, Server.step] at h
      split at h
      · split at h
        · simp only [Option.some.injEq] at h; subst h
          unfold Server.handle
          dsimp only
          split
          · exact passDone_uncancelled (S := { S with host := (onInput env ch S.host raw).1 }) hi _ _
          · exact passDone_uncancelled (S := { S with host := (onInput env ch S.host raw).1 }) hi _ _
          · exact hi
        · simp at h
      · simp at h
    | sent d n =>
      simp only [Server.within, Server.step] at h
      split at h
      · split at h
        · split at h
          · simp only [Option.some.injEq] at h; subst h; exact hi
          · split at h
            · simp only [Option.some.injEq] at h; subst h; exact passDone_uncancelled hi _ _
            · simp at h
        · simp at h
      · simp at h
    | sendFail d =>
      simp only [Server.within, Server.step] at h
      split at h
      · split at h
        · simp only [Option.some.injEq] at h; subst h; exact passDone_uncancelled hi _ _
        · simp at h
      · simp at h
    | eof d =>
      simp only [Server.within, Server.step] at h
      split at h
      · split at h
        · simp only [Option.some.injEq] at h; subst h; exact hi
        · simp at h
      · simp at h
    | other n d x =>
      simp only [Server.within, Server.step] at h
      split at h
      · simp only [Option.some.injEq] at h; subst h; exact hi
      · simp at h
    | stop =>
      simp only [Server.within, Server.step, Option.some.injEq] at h; subst h
      exact fun hc => by cases hc

theorem within_living {env : Ext σ H} {S S' : Server σ} {w : Within σ} {c : Nat} (h : S.within env w = some S') (hi : Living S c)
    (hu : Uncancelled S) (h1 : w ≠ .event (.eof c)) (h2 : w ≠ .event .stop) (h3 : w ≠ .interrupt)
    (h4 : w ≠ .drop c) : Living S' c := by
  rcases within_split w with ⟨e, rfl, he⟩ | ⟨d, rfl⟩ | ⟨hw, hdr⟩
  · rw [within_step he] at h
    exact step_living h hi he (fun hc => h1 (by rw [hc])) (fun hc => h2 (by rw [hc]))
  · obtain ⟨k, -, -, rfl⟩ := within_drop h
    have hd : c ≠ d := fun hc => h4 (by rw [hc])
    exact ⟨hi.1, by rw [setConn_other _ _ hd]; exact hi.2⟩
  · obtain ⟨-, ⟨d, -, -, hn, hc, ht, -⟩ | ⟨hc, -, ⟨hx | hx, hs, -⟩ | ⟨-, -, ht, -⟩ | ⟨l, -, -, ht, -⟩⟩⟩ := within_loop h hw hdr
    · refine ⟨ht.trans hi.1, ?_⟩
      rw [hc]
      exact (setConn_living (k := {}) hi (by simp)).2
    · subst hx
      simp only [Server.within, hu hi.1] at h
      rw [if_neg (by simp)] at h; cases h
    · exact absurd hx h3
    · exact ⟨ht.trans hi.1, by rw [hc]; exact hi.2⟩
    · exact ⟨ht, by rw [hc]; exact hi.2⟩

theorem withins_uncancelled {env : Ext σ H} {S S' : Server σ} {ws : List (Within σ)} (h : S.withins env ws = some S')
    (hi : Uncancelled S) : Uncancelled S' := by
  induction ws generalizing S with
  | nil => cases h; exact hi
  | cons w ws ih => obtain ⟨T, h1, h2⟩ := withins_cons h; exact ih h2 (within_uncancelled h1 hi)

theorem within_exists {env : Ext σ H} {S S' : Server σ} {w : Within σ} {c : Nat} (h : S.within env w = some S')
    (hi : S.conns c ≠ none) : S'.conns c ≠ none := by
  rcases within_split w with ⟨e, rfl, he⟩ | ⟨d, rfl⟩ | ⟨hw, hdr⟩
  · rw [within_step he] at h; exact step_exists h hi
  · obtain ⟨k, -, -, rfl⟩ := within_drop h
    by_cases hd : c = d
    · subst hd; rw [setConn_same]; simp
    · rw [setConn_other _ _ hd]; exact hi
  · obtain ⟨-, ⟨d, -, -, hn, hc, -⟩ | ⟨hc, -⟩⟩ := within_loop h hw hdr
    · rw [hc]
      by_cases hd : c = d
      · subst hd; rw [setConn_same]; simp
      · rw [setConn_other _ _ hd]; exact hi
    · rw [hc]; exact hi

/-- C124: as long as nobody asks the host to stop, the peer does not close the connection and the program does not cancel its task, a
connection stays open, whatever bytes are
read on it or on others, whatever sends fail, and whether `async_run` goes on, fails or is called again. -/
theorem C124_stays_open (env : Ext σ H) {s : Host σ} {S S' : Server σ} {ws vs : List (Within σ)} {c : Nat}
    (h : (Server.start s).withins env ws = some S) (hc : Open S c) (h' : S.withins env vs = some S')
    (hs : S.terminating = false) (hn : NotStopped vs) (he : .event (.eof c) ∉ vs) (hd : .drop c ∉ vs) :
    Open S' c ∧ S'.terminating = false := by
  have hu : Uncancelled S := withins_uncancelled h fun _ => rfl
  obtain ⟨k, hk, hp⟩ := hc
  have hl : Living S c := ⟨hs, fun k' hk' => by rw [hk] at hk'; cases hk'; exact hp⟩
  have hx : S.conns c ≠ none := by rw [hk]; simp
  clear h hk hs hp
  induction vs generalizing S with
  | nil =>
    cases h'
    cases hk' : S'.conns c with
    | none => exact absurd hk' hx
    | some k' => exact ⟨⟨k', hk', hl.2 k' hk'⟩, hl.1⟩
  | cons w vs ih =>
    obtain ⟨T, t1, t2⟩ := withins_cons h'
    obtain ⟨n1, n2⟩ := hn
    simp only [List.mem_cons, not_or] at n1 n2 he hd
    exact ih t2 ⟨n1.2, n2.2⟩ he.2 hd.2 (within_uncancelled t1 hu)
      (within_living t1 hl hu (fun h => he.1 h.symm) (fun h => n1.1 h.symm) (fun h => n2.1 h.symm)
        (fun h => hd.1 h.symm)) (within_exists t1 hx)

theorem withins_closed (env : Ext σ H) {S S' : Server σ} {ws : List (Within σ)} {c : Nat} {wire : Bytes}
    (hc : S.conns c = some ⟨.closed, wire⟩) (h : S.withins env ws = some S') :
    S'.conns c = some ⟨.closed, wire⟩ ∧ reads c (events ws) = 0 := by
  induction ws generalizing S with
  | nil => cases h; exact ⟨hc, rfl⟩
  | cons w ws ih =>
    obtain ⟨T, t1, t2⟩ := withins_cons h
    have key : T.conns c = some ⟨.closed, wire⟩ ∧ reads c (events [w]) = 0 := by
      rcases within_split w with ⟨e, rfl, he⟩ | ⟨d, rfl⟩ | ⟨hw, hdr⟩
      · rw [within_step he] at t1
        obtain ⟨k1, k2, -, -⟩ := C104_closed_for_good env hc (es := [e]) (S' := T) (by simp [Server.run, t1])
        exact ⟨k1, k2⟩
      · obtain ⟨k, hk, hp, rfl⟩ := within_drop t1
        have hd : c ≠ d := by rintro rfl; rw [hc] at hk; cases hk; exact hp rfl
        exact ⟨by rw [setConn_other _ _ hd]; exact hc, rfl⟩
      · refine ⟨?_, (loop_silent env S.host hw).2.2 c⟩
        obtain ⟨-, ⟨d, -, -, hn, hc', -⟩ | ⟨hc', -⟩⟩ := within_loop t1 hw hdr
        · have hd : c ≠ d := by rintro rfl; rw [hc] at hn; cases hn
          rw [hc', setConn_other _ _ hd]; exact hc
        · rw [hc']; exact hc
    obtain ⟨i1, i2⟩ := ih key.1 t2
    refine ⟨i1, ?_⟩
    have hap : ∀ es fs : List (Event σ), reads c (es ++ fs) = reads c es + reads c fs := by
      intro es fs
      induction es with
      | nil => simp [reads]
      | cons e es ih => rw [List.cons_append, reads_cons, ih, reads_cons c e es, Nat.add_assoc]
    rw [events_cons, hap, key.2, i2]

/-- C124: the program can cancel the task of an open connection, also while an answer is being sent: this closes the connection for good,
nothing is read from it or sent on it any more, and nothing else is changed. -/
theorem C124_drop (env : Ext σ H) {S : Server σ} {c : Nat} (hc : Open S c) :
    ∃ S', S.within env (.drop c) = some S' ∧ (∀ d, d ≠ c → S'.conns d = S.conns d) ∧ S'.host = S.host ∧
      S'.serving = S.serving ∧ S'.terminating = S.terminating ∧ S'.cancelling = S.cancelling ∧
      ∀ ws S'', S'.withins env ws = some S'' → ¬ Open S'' c ∧ sentOn S'' c = sentOn S c ∧ reads c (events ws) = 0 := by
  obtain ⟨k, hk, hp⟩ := hc
  refine ⟨S.setConn c { k with phase := .closed }, ?_, fun d hd => setConn_other _ _ hd, rfl, rfl, rfl, rfl, ?_⟩
  · simp only [Server.within, hk]
    rw [if_neg hp]
  · intro ws S'' h
    obtain ⟨h1, h2⟩ := withins_closed env (wire := k.wire) (setConn_same _ _ _) h
    refine ⟨?_, ?_, h2⟩
    · rintro ⟨k', hk', hp'⟩
      rw [h1] at hk'; cases hk'; exact hp' rfl
    · unfold sentOn; rw [h1, hk]

/-! ## Many hosts -/

theorem fleet_cons {envs : Nat → Ext σ H} {F F' : Fleet σ} {e : FleetEvent σ} {es : List (FleetEvent σ)}
    (h : F.run envs (e :: es) = some F') : ∃ G, F.step envs e = some G ∧ G.run envs es = some F' := by
  simpa [Fleet.run] using Option.bind_eq_some_iff.1 h

theorem within_ids {env : Ext σ H} {S S' : Server σ} {w : Within σ} (h : S.within env w = some S') : S.host.ids ≤ S'.host.ids := by
  rcases within_split w with ⟨e, rfl, he⟩ | ⟨c, rfl⟩ | ⟨hw, hd⟩
  · rw [within_step he] at h
    have hh := step_host h
    cases e with
    | recv c ch raw => rw [hh]; exact onInput_ids env ch S.host raw
    | other n d x =>
      simp only [Server.step] at h
      split at h
      · next hn => rw [hh]; exact hn
      · cases h
    | _ => rw [hh]; exact Nat.le_refl _
  · obtain ⟨k, -, -, rfl⟩ := within_drop h; exact Nat.le_refl _
  · rw [(within_loop h hw hd).1]

/-- One event elsewhere, as a host sees it. -/
theorem fleet_elsewhere {envs : Nat → Ext σ H} {F G : Fleet σ} {e : FleetEvent σ} {h x : Nat} {S : Server σ}
    (hF : F.step envs e = some G) (hs : F.server h = some S) (hx : F.process.serving h = some x)
    (h1 : ∀ w, e ≠ .at h w) (h2 : ∀ x, e ≠ .serve h x) :
    G.process.serving h = some x ∧ ∃ n d y T, G.server h = some T ∧ S.within (envs x) (.event (.other n d y)) = some T := by
  have key : G.process.hosts h = F.process.hosts h → G.doors h = F.doors h → F.process.ids ≤ G.process.ids →
      G.process.serving h = some x ∧ ∃ n d y T, G.server h = some T ∧ S.within (envs x) (.event (.other n d y)) = some T := by
    intro k1 k2 k3
    refine ⟨by unfold Process.serving at *; rw [k1]; exact hx, G.process.ids, G.process.settings, G.process.states x, ?_⟩
    unfold Process.serving at hx
    unfold Fleet.server Process.host at *
    rw [k1, k2]
    cases ha : F.process.hosts h with
    | none => rw [ha] at hx; cases hx
    | some a =>
      rw [ha] at hx hs
      cases hx
      cases hs
      refine ⟨_, rfl, ?_⟩
      simp only [Server.within, Server.step]
      rw [if_pos k3]
  cases e with
  | serve i y =>
    simp only [Fleet.step, Option.some.injEq] at hF; subst hF
    have hi : h ≠ i := by rintro rfl; exact h2 y rfl
    exact key (by simp [Process.serve, hi]) rfl (Nat.le_refl _)
  | other n d y =>
    simp only [Fleet.step, Option.some.injEq] at hF; subst hF
    exact key rfl rfl (Nat.le_add_right _ _)
  | «at» i w =>
    have hi : h ≠ i := by rintro rfl; exact h1 w rfl
    simp only [Fleet.step, Fleet.atHost] at hF
    cases ha : F.process.hosts i with
    | none => rw [ha] at hF; cases hF
    | some a =>
      cases hT : F.server i with
      | none => rw [ha, hT] at hF; cases hF
      | some T =>
        rw [ha, hT] at hF
        simp only at hF
        obtain ⟨T', h3, rfl⟩ := Option.map_eq_some_iff.1 hF
        have hids := within_ids h3
        have : T.host.ids = F.process.ids := by
          unfold Fleet.server Process.host at hT
          rw [ha] at hT; cases hT; rfl
        exact key (by simp [hi]) (by simp [hi]) (by dsimp only; omega)

/-- One event at a host. -/
theorem fleet_here {envs : Nat → Ext σ H} {F G : Fleet σ} {w : Within σ} {h x : Nat} {S : Server σ}
    (hF : F.step envs (.at h w) = some G) (hs : F.server h = some S) (hx : F.process.serving h = some x) :
    G.process.serving h = some x ∧ ∃ T, G.server h = some T ∧ S.within (envs x) w = some T := by
  simp only [Fleet.step, Fleet.atHost] at hF
  unfold Process.serving at *
  cases ha : F.process.hosts h with
  | none => rw [ha] at hx; cases hx
  | some a =>
    rw [ha] at hx; cases hx
    rw [ha, hs] at hF
    simp only at hF
    obtain ⟨T, h3, rfl⟩ := Option.map_eq_some_iff.1 hF
    refine ⟨by simp, T, ?_, h3⟩
    simp [Fleet.server, Process.host]

/-- C124: of any number of hosts in one event loop, each does what it does alone: as long as `serve` is not called on it again it serves the
same extension, and its connections, its state and what it sends come from what happened at it, in that order; all that happened elsewhere
is to it as other code of its process. -/
theorem C124_each (envs : Nat → Ext σ H) {F F' : Fleet σ} {es : List (FleetEvent σ)} (hF : F.run envs es = some F') {h x : Nat}
    {S : Server σ} (hs : F.server h = some S) (hx : F.process.serving h = some x) (hn : ∀ x, .serve h x ∉ es) :
    F'.process.serving h = some x ∧ ∃ ws S', Sees h es ws ∧ F'.server h = some S' ∧ S.withins (envs x) ws = some S' := by
  induction es generalizing F S with
  | nil => cases hF; exact ⟨hx, [], S, .nil, hs, rfl⟩
  | cons e es ih =>
    obtain ⟨G, g1, g2⟩ := fleet_cons hF
    have hn' : ∀ x, .serve h x ∉ es := fun y hy => hn y (List.mem_cons_of_mem _ hy)
    by_cases hat : ∃ w, e = .at h w
    · obtain ⟨w, rfl⟩ := hat
      obtain ⟨k1, T, k2, k3⟩ := fleet_here g1 hs hx
      obtain ⟨k4, ws, S', k5, k6, k7⟩ := ih g2 k2 k1 hn'
      refine ⟨k4, w :: ws, S', .here w k5, k6, ?_⟩
      simp only [Server.withins, k3, Option.bind_some]; exact k7
    · have hat' : ∀ w, e ≠ .at h w := fun w hw => hat ⟨w, hw⟩
      obtain ⟨k1, n, d, y, T, k2, k3⟩ := fleet_elsewhere g1 hs hx hat' (fun y hy => hn y (by rw [hy]; exact List.mem_cons_self))
      obtain ⟨k4, ws, S', k5, k6, k7⟩ := ih g2 k2 k1 hn'
      refine ⟨k4, _, S', .elsewhere e n d y hat' k5, k6, ?_⟩
      simp only [Server.withins, k3, Option.bind_some]; exact k7

/-- C124: and nothing that happens at one host touches the connections of another, or whether it runs. -/
theorem C124_doors (envs : Nat → Ext σ H) {F F' : Fleet σ} {es : List (FleetEvent σ)} (hF : F.run envs es = some F') {h : Nat}
    (hn : ∀ w, .at h w ∉ es) : F'.doors h = F.doors h := by
  induction es generalizing F with
  | nil => cases hF; rfl
  | cons e es ih =>
    obtain ⟨G, g1, g2⟩ := fleet_cons hF
    rw [ih g2 (fun w hw => hn w (List.mem_cons_of_mem _ hw))]
    cases e with
    | serve i y => simp only [Fleet.step, Option.some.injEq] at g1; subst g1; rfl
    | other n d y => simp only [Fleet.step, Option.some.injEq] at g1; subst g1; rfl
    | «at» i w =>
      have hi : h ≠ i := by rintro rfl; exact hn w List.mem_cons_self
      simp only [Fleet.step, Fleet.atHost] at g1
      cases ha : F.process.hosts i with
      | none => rw [ha] at g1; cases g1
      | some a =>
        cases hT : F.server i with
        | none => rw [ha, hT] at g1; cases g1
        | some T =>
          rw [ha, hT] at g1
          simp only at g1
          obtain ⟨T', -, rfl⟩ := Option.map_eq_some_iff.1 g1
          simp [hi]

/-- C124: an event that can happen at a host that runs alone can happen at it among others. -/
theorem C124_possible (envs : Nat → Ext σ H) {F : Fleet σ} {h x : Nat} {S : Server σ} (hs : F.server h = some S)
    (hx : F.process.serving h = some x) (w : Within σ) :
    (F.step envs (.at h w)).isSome = (S.within (envs x) w).isSome := by
  simp only [Fleet.step, Fleet.atHost]
  unfold Process.serving at hx
  cases ha : F.process.hosts h with
  | none => rw [ha] at hx; cases hx
  | some a =>
    rw [ha] at hx; cases hx
    rw [hs]
    simp only [Option.isSome_map]

/-! ## When `async_run` ends -/

/-- C125, under `host.run()`: when `async_run` has ended every connection is closed. -/
theorem C125_run_partial (env : Ext σ H) {s : Host σ} {S : Server σ} {es : List (Event σ)}
    (h : (Server.start s).run env es = some S) (he : S.serving = false) (c : Nat) : ¬ Open S c := by
  have key : ∀ (es : List (Event σ)) (T : Server σ), T.run env es = some S → (T.serving = false → ∀ c k, T.conns c = some k → k.phase = .closed) →
      ∀ c k, S.conns c = some k → k.phase = .closed := by
    intro es
    induction es with
    | nil => intro T h hi; cases h; exact hi he
    | cons e es ih =>
      intro T h hi
      obtain ⟨U, u1, u2⟩ := run_cons h
      refine ih U u2 ?_
      have hshut : ∀ V : Server σ, ∀ c k, V.shutdown.conns c = some k → k.phase = .closed := by
        intro V c k hk
        simp only [Server.shutdown, Option.map_eq_some_iff] at hk
        obtain ⟨_, _, rfl⟩ := hk
        rfl
      intro hU
      cases hl : e.loop with
      | false =>
        obtain ⟨k1, k2, -⟩ := step_common u1 hl
        have hT : T.serving = false := k1 ▸ hU
        have hcl := hi hT
        intro c k hk
        cases hc : T.conns c with
        | none => rw [k2 c hc] at hk; cases hk
        | some k0 =>
          have hp := hcl c k0 hc
          cases e with
          | accept d => cases hl
          | cancelled => cases hl
          | acceptFail => cases hl
          | recv d ch raw =>
            simp only [Server.step] at u1
            split at u1
            · next k' hk' => rw [if_neg (by rw [hcl d k' hk']; simp)] at u1; cases u1
            · cases u1
          | sent d n =>
            simp only [Server.step] at u1
            split at u1
            · next k' hk' =>
              rw [hcl d k' hk'] at u1; cases u1
            · cases u1
          | sendFail d =>
            simp only [Server.step] at u1
            split at u1
            · next k' hk' =>
              rw [hcl d k' hk'] at u1; cases u1
            · cases u1
          | eof d =>
            simp only [Server.step] at u1
            split at u1
            · next k' hk' => rw [if_neg (by rw [hcl d k' hk']; simp)] at u1; cases u1
            · cases u1
          | other n d x =>
            simp only [Server.step] at u1
            split at u1
            · cases u1; exact hcl c k hk
            · cases u1
          | stop => cases u1; exact hcl c k hk
      | true =>
        cases e with
        | accept d =>
          simp only [Server.step] at u1
          split at u1
          · next hs =>
            simp only [Option.some.injEq] at u1; subst u1
            split at hU
            · next ht => rw [if_pos ht]; exact hshut _
            · rw [show (T.setConn d {}).serving = T.serving from rfl, hs.1] at hU; cases hU
          · cases u1
        | cancelled =>
          simp only [Server.step] at u1
          split at u1
          · cases u1; exact hshut _
          · cases u1
        | acceptFail =>
          simp only [Server.step] at u1
          split at u1
          · cases u1; exact hshut _
          · cases u1
        | _ => cases hl
  rintro ⟨k, hk, hp⟩
  exact hp (key es _ h (fun hc => by cases hc) c k hk)

theorem reads_append (c : Nat) (es fs : List (Event σ)) : reads c (es ++ fs) = reads c es + reads c fs := by
  induction es with
  | nil => simp [reads]
  | cons e es ih => rw [List.cons_append, reads_cons, ih, reads_cons c e es, Nat.add_assoc]

theorem accepts_append (es fs : List (Event σ)) : accepts (es ++ fs) = accepts es + accepts fs := by
  induction es with
  | nil => simp [accepts]
  | cons e es ih => rw [List.cons_append, accepts_cons, ih, accepts_cons e es, Nat.add_assoc]

/-- How many chunks a connection can still read once the host terminates. -/
def chunksLeft (S : Server σ) (c : Nat) : Nat :=
  match S.conns c with
  | none => if S.serving then 1 else 0
  | some _ => readsLeft S c

theorem within_terminating {env : Ext σ H} {S S' : Server σ} {w : Within σ} (h : S.within env w = some S')
    (ht : S.terminating = true) (hw : ∀ l, w ≠ .again l) : S'.terminating = true ∧
      accepts (events [w]) + (if S'.serving then 1 else 0) ≤ (if S.serving then 1 else 0) ∧
      ∀ c, reads c (events [w]) + chunksLeft S' c ≤ chunksLeft S c := by
  rcases within_split w with ⟨e, rfl, he⟩ | ⟨d, rfl⟩ | ⟨hl, hdr⟩
  · rw [within_step he] at h
    obtain ⟨h1, h2, h3⟩ := step_stopping h ht
    obtain ⟨k1, k2, -⟩ := step_common h he
    refine ⟨h1, h2, fun c => ?_⟩
    show reads c [e] + _ ≤ _
    have h3 := h3 c
    unfold chunksLeft
    cases hc : S.conns c with
    | none =>
      rw [k2 c hc, k1]
      have : readsLeft S c = 0 := by unfold readsLeft; rw [hc]
      dsimp only
      omega
    | some k =>
      cases hc' : S'.conns c with
      | none => exact absurd hc' (step_exists h (by rw [hc]; simp))
      | some k' => exact h3
  · obtain ⟨k, hk, hp, rfl⟩ := within_drop h
    refine ⟨ht, Nat.le_of_eq (Nat.zero_add _), fun c => ?_⟩
    show 0 + _ ≤ _
    unfold chunksLeft
    by_cases hd : c = d
    · subst hd; rw [setConn_same]; simp [readsLeft, setConn_same]
    · rw [setConn_other _ _ hd]
      cases hk : S.conns c with
      | none => exact Nat.le_of_eq (Nat.zero_add _)
      | some k' =>
        dsimp only
        rw [readsLeft_congr (S := S) (setConn_other _ _ hd), Nat.zero_add]
  · obtain ⟨-, ⟨d, rfl, hs, hn, hc, ht', hs'⟩ | ⟨hc, hna, ⟨hx, hs, ht', hs'⟩ | ⟨rfl, hs, ht', hs'⟩ | ⟨l, rfl, -⟩⟩⟩ := within_loop h hl hdr
    · rw [ht] at ht' hs'
      refine ⟨ht', by simp [events, accepts, hs, hs'], fun c => ?_⟩
      show 0 + _ ≤ _
      unfold chunksLeft
      rw [hc]
      by_cases hd : c = d
      · subst hd
        rw [setConn_same, hn, hs]
        simp [readsLeft, hc, setConn_same]
      · rw [setConn_other _ _ hd]
        cases hk : S.conns c with
        | none => simp [hs']
        | some k =>
          dsimp only
          rw [readsLeft_congr (S := S) (S' := S') (by rw [hc, setConn_other _ _ hd]), Nat.zero_add]
    all_goals
      first
      | (exfalso; exact hw _ rfl)
      | skip
    · refine ⟨ht', ?_, fun c => ?_⟩
      · have : accepts (events [w]) = 0 := by rcases hx with rfl | rfl <;> rfl
        rw [this, hs']; simp
      · rw [(loop_silent env S.host hl).2.2 c]
        unfold chunksLeft
        rw [hc, hs']
        cases hk : S.conns c with
        | none => simp
        | some k => dsimp only; rw [readsLeft_congr (S := S) (S' := S') (by rw [hc]), Nat.zero_add]
    · refine ⟨ht'.trans ht, by simp [events, accepts, hs'], fun c => ?_⟩
      show 0 + _ ≤ _
      unfold chunksLeft
      rw [hc, hs']
      cases hk : S.conns c with
      | none => simp
      | some k => dsimp only; rw [readsLeft_congr (S := S) (S' := S') (by rw [hc]), Nat.zero_add]

/-- C125: once the host is asked to stop - `terminating` is set, or the task is cancelled - and until `async_run` is called again, at most
one more connection is accepted and each connection, also the new one, handles at most one more chunk. -/
theorem C125_stops_partial (env : Ext σ H) {S S' : Server σ} {ws : List (Within σ)} (ht : S.terminating = true)
    (h : S.withins env ws = some S') (hw : ∀ l, .again l ∉ ws) : accepts (events ws) ≤ 1 ∧ ∀ c, reads c (events ws) ≤ 1 := by
  have key : accepts (events ws) ≤ (if S.serving then 1 else 0) ∧ ∀ c, reads c (events ws) ≤ chunksLeft S c := by
    induction ws generalizing S with
    | nil => exact ⟨Nat.zero_le _, fun _ => Nat.zero_le _⟩
    | cons w ws ih =>
      obtain ⟨T, t1, t2⟩ := withins_cons h
      obtain ⟨k1, k2, k3⟩ := within_terminating t1 ht (fun l hl => hw l (by rw [hl]; exact List.mem_cons_self))
      obtain ⟨i1, i2⟩ := ih k1 t2 (fun l hl => hw l (List.mem_cons_of_mem _ hl))
      rw [events_cons]
      refine ⟨by rw [accepts_append]; omega, fun c => ?_⟩
      have := k3 c
      have := i2 c
      rw [reads_append]; omega
  refine ⟨key.1.trans (by split <;> omega), fun c => (key.2 c).trans ?_⟩
  unfold chunksLeft readsLeft
  split
  · split <;> omega
  · split <;> omega

/-- A host that does not terminate answers one chunk. -/
theorem serves_chunk (env : Ext σ H) {S : Server σ} {c : Nat} {wire : Bytes} (hc : S.conns c = some ⟨.waiting, wire⟩)
    (ht : S.terminating = false) (ch : Choice) {raw : Bytes} (hr : raw ≠ []) (hl : raw.length ≤ 10240) :
    ∃ ws S', S.withins env ws = some S' ∧ (∀ w ∈ ws, ∃ e, w = .event e) ∧ chunksFrom c (events ws) = [raw] ∧
      S'.conns c = some ⟨.waiting, wire ++ answer env ch S.host raw⟩ ∧ S'.terminating = false ∧ S'.serving = S.serving := by
  obtain ⟨S1, h1, -, h3, h4, h5 | ⟨out, h5, h6, S2, h7, h8⟩⟩ := C49_serves_on env hc ht ch hr hl
  · refine ⟨[.event (.recv c ch raw)], S1, ?_, by simp, by simp [events, chunksFrom], ?_, h4, h3⟩
    · simp only [Server.withins, within_step (show (Event.recv (σ := σ) c ch raw).loop = false from rfl), h1, Option.bind_some]
    · have e1 : S.step env (.recv c ch raw) = some (S.handle env c ⟨.waiting, wire⟩ ch raw) := by
        simp only [Server.step, hc]
        exact if_pos ⟨trivial, hr, hl⟩
      rw [e1] at h1; cases h1
      rcases handle_same env S c ⟨.waiting, wire⟩ ch raw with ⟨o, _, k2⟩ | ⟨k1, _⟩
      · rw [h5] at k2; cases k2
      · rw [h5, k1, List.append_nil]
  · have e1 := step_common h7 rfl
    refine ⟨[.event (.recv c ch raw), .event (.sent c out.length)], S2, ?_, by simp, by simp [events, chunksFrom], ?_, ?_, ?_⟩
    · simp only [Server.withins, within_step (show (Event.recv (σ := σ) c ch raw).loop = false from rfl), h1, Option.bind_some,
        within_step (show (Event.sent (σ := σ) c out.length).loop = false from rfl), h7]
    · rw [h8]; unfold answer; rw [h5]
    · rcases e1.2.2 with e | ⟨e, -⟩
      · exact e.trans h4
      · cases e
    · exact e1.1.trans h3

/-- Any number of chunks. -/
theorem serves_chunks (env : Ext σ H) {S : Server σ} {c : Nat} {wire : Bytes} (hc : S.conns c = some ⟨.waiting, wire⟩)
    (ht : S.terminating = false) (ch : Choice) (raws : List Bytes) (hr : ∀ raw ∈ raws, raw ≠ [] ∧ raw.length ≤ 10240) :
    ∃ ws S' wire', S.withins env ws = some S' ∧ (∀ w ∈ ws, ∃ e, w = .event e) ∧ chunksFrom c (events ws) = raws ∧
      S'.conns c = some ⟨.waiting, wire'⟩ ∧ S'.terminating = false ∧ S'.serving = S.serving := by
  induction raws generalizing S wire with
  | nil => exact ⟨[], S, wire, rfl, by simp, rfl, hc, ht, rfl⟩
  | cons raw raws ih =>
    have h0 := hr raw List.mem_cons_self
    obtain ⟨ws, T, h1, h2, h3, h4, h5, h6⟩ := serves_chunk env hc ht ch h0.1 h0.2
    obtain ⟨vs, U, w', k1, k2, k3, k4, k5, k6⟩ := ih h4 h5 (fun r hr' => hr r (List.mem_cons_of_mem _ hr'))
    refine ⟨ws ++ vs, U, w', withins_append h1 k1, ?_, ?_, k4, k5, k6.trans h6⟩
    · intro w hw
      rcases List.mem_append.1 hw with hw | hw
      · exact h2 w hw
      · exact k2 w hw
    · have e1 : ∀ ws vs : List (Within σ), events (ws ++ vs) = events ws ++ events vs := by
        intro ws vs
        induction ws with
        | nil => rfl
        | cons w ws ih => rw [List.cons_append, events_cons, ih, events_cons w ws, List.append_assoc]
      have e2 : ∀ es fs : List (Event σ), chunksFrom c (es ++ fs) = chunksFrom c es ++ chunksFrom c fs := by
        intro es fs
        induction es with
        | nil => rfl
        | cons e es ih =>
          cases e with
          | recv d ch raw =>
            simp only [List.cons_append, chunksFrom, ih]
            by_cases hd : d = c
            · simp [hd]
            · simp [hd]
          | _ => exact ih
      rw [e1, e2, h3, k3]; rfl

/-- C125, violated: when the program cancels the task that awaits `async_run`, no `CancelledError` comes back to it, `async_run` returns, and
every connection is as before; a peer that waits is still read, and its chunk still handled and answered. -/
theorem C125_interrupt_violated (env : Ext σ H) {S : Server σ} (hs : S.serving = true) :
    ∃ S', S.within env .interrupt = some S' ∧ S'.serving = false ∧ S'.conns = S.conns ∧
      ∀ c wire ch raw, S.conns c = some ⟨.waiting, wire⟩ → raw ≠ [] → raw.length ≤ 10240 →
        ∃ ws S'', (ws = [.event (.recv c ch raw)] ∨ ∃ n, ws = [.event (.recv c ch raw), .event (.sent c n)]) ∧
          S'.withins env ws = some S'' ∧ S''.conns c = some ⟨.closed, wire ++ answer env ch S.host raw⟩ := by
  refine ⟨{ S with terminating := true, serving := false }, by simp only [Server.within]; rw [if_pos hs], rfl, rfl, ?_⟩
  intro c wire ch raw hc hr hl
  generalize hT : ({ S with terminating := true, serving := false } : Server σ) = T
  have hTc : T.conns c = some ⟨.waiting, wire⟩ := by subst hT; exact hc
  have hTt : T.terminating = true := by subst hT; rfl
  have hTh : T.host = S.host := by subst hT; rfl
  rw [← hTh]
  clear hT hTh
  have h1 : T.step env (.recv c ch raw) = some (T.handle env c ⟨.waiting, wire⟩ ch raw) := by
    simp only [Server.step, hTc]
    exact if_pos ⟨trivial, hr, hl⟩
  rcases handle_same env T c ⟨.waiting, wire⟩ ch raw with ⟨out, k1, k2⟩ | ⟨k1, k2⟩
  · have h2 : (T.handle env c ⟨.waiting, wire⟩ ch raw).step env (.sent c out.length)
        = some ((T.handle env c ⟨.waiting, wire⟩ ch raw).passDone c ⟨.sending [], wire ++ out⟩) := by
      simp only [Server.step, k2, Nat.lt_irrefl, if_false, if_true]
    refine ⟨_, (T.handle env c ⟨.waiting, wire⟩ ch raw).passDone c ⟨.sending [], wire ++ out⟩, .inr ⟨out.length, rfl⟩, ?_, ?_⟩
    · simp only [Server.withins, within_step (show (Event.recv (σ := σ) c ch raw).loop = false from rfl), h1, Option.bind_some,
        within_step (show (Event.sent (σ := σ) c out.length).loop = false from rfl), h2]
    · rw [passDone_same, handle_terminating, hTt]
      unfold answer; rw [k1]; rfl
  · refine ⟨_, T.handle env c ⟨.waiting, wire⟩ ch raw, .inl rfl, ?_, ?_⟩
    · simp only [Server.withins, within_step (show (Event.recv (σ := σ) c ch raw).loop = false from rfl), h1, Option.bind_some]
    · rw [k2, hTt, k1, List.append_nil]; rfl

/-- C125, violated: when accepting a connection fails, `async_run` raises but the peers that are connected go on being served: any number of
chunks is read and answered. -/
theorem C125_failed_violated (env : Ext σ H) {S : Server σ} {c : Nat} {wire : Bytes} (hs : S.serving = true) (ht : S.terminating = false)
    (hc : S.conns c = some ⟨.waiting, wire⟩) (ch : Choice) (raws : List Bytes) (hr : ∀ raw ∈ raws, raw ≠ [] ∧ raw.length ≤ 10240) :
    ∃ S', S.within env (.event .acceptFail) = some S' ∧ S'.serving = false ∧ ∃ ws S'', S'.withins env ws = some S'' ∧
      chunksFrom c (events ws) = raws ∧ S''.serving = false ∧ Open S'' c := by
  refine ⟨{ S with serving := false }, by simp only [Server.within]; rw [if_pos hs], rfl, ?_⟩
  obtain ⟨ws, S', w', h1, -, h3, h4, -, h6⟩ := serves_chunks env (S := { S with serving := false }) hc ht ch raws hr
  exact ⟨ws, S', h1, h3, h6, _, h4, by simp⟩

/-- C125, violated: after `async_run` returned because it was asked to, calling it again revives the connections that are still open, also
if it cannot listen and raises (which it always does while the port is still the host's, see C117): any number of chunks is read and
answered. -/
theorem C125_again_violated (env : Ext σ H) {S : Server σ} {c : Nat} {wire : Bytes} (hs : S.serving = false)
    (hc : S.conns c = some ⟨.waiting, wire⟩) (ch : Choice) (raws : List Bytes) (hr : ∀ raw ∈ raws, raw ≠ [] ∧ raw.length ≤ 10240) :
    ∃ S', S.within env (.again false) = some S' ∧ S'.serving = false ∧ ∃ ws S'', S'.withins env ws = some S'' ∧
      chunksFrom c (events ws) = raws ∧ S''.serving = false ∧ Open S'' c := by
  refine ⟨{ S with terminating := false, cancelling := false, serving := false },
    by simp only [Server.within]; rw [if_neg (by simp [hs])], rfl, ?_⟩
  obtain ⟨ws, S', w', h1, -, h3, h4, -, h6⟩ :=
    serves_chunks env (S := { S with terminating := false, cancelling := false, serving := false }) hc rfl ch raws hr
  exact ⟨ws, S', h1, h3, h6, _, h4, by simp⟩

/-! ## Cases that meet the hypotheses -/

/-- Two hosts in one event loop; one peer is connected to each, the first asks its host to initialise while the program uses ids; then accepting
fails at the second host. -/
def sampleFleet : Fleet Nat := { process := (sampleProcess.serve 0 0).serve 1 1, doors := fun _ => {} }
def sampleFleetEvents : List (FleetEvent Nat) :=
  [.at 0 (.event (.accept 0)), .at 1 (.event (.accept 0)), .at 0 (.event (.recv 0 sampleChoice sampleInitFrame)),
   .other 5 [] (fun _ => 3), .at 1 (.event .acceptFail), .at 1 (.event (.recv 0 sampleChoice sampleInitFrame)),
   .at 0 (.event (.sent 0 10)), .serve 2 0, .at 1 (.event (.sent 0 4))]
def sampleFleetAfter : Fleet Nat := (sampleFleet.run sampleEnvs sampleFleetEvents).get (by decide +kernel)
theorem sampleFleet_run : sampleFleet.run sampleEnvs sampleFleetEvents = some sampleFleetAfter := (Option.some_get _).symm

/-- One host, interrupted and called again while the peer is connected. -/
def sampleWithin : List (Within Nat) :=
  [.event (.accept 0), .event (.recv 0 sampleChoice sampleInitFrame), .event (.sent 0 144), .interrupt, .again false]
def sampleWithinAfter : Server Nat := ((Server.start sampleHost).withins sampleExt sampleWithin).get (by decide +kernel)
theorem sampleWithin_run : (Server.start sampleHost).withins sampleExt sampleWithin = some sampleWithinAfter :=
  (Option.some_get _).symm
def sampleInterrupted : Server Nat := ((Server.start sampleHost).withins sampleExt [.event (.accept 0), .interrupt]).get (by decide +kernel)

example : sampleWithinAfter.serving = false ∧ (sampleWithinAfter.conns 0).map (·.phase) = some .waiting ∧
    (sampleWithinAfter.conns 0).map (·.wire.length) = some 144 := by decide +kernel

example := C124_sequential sampleExt sampleWithin_run
example := C124_replies sampleExt sampleWithin_run 0 (by simp [sampleWithin])
example := C124_reachable sampleExt sampleWithin_run sampleHost_started
example := C124_stays_open sampleExt sampleWithin_run (c := 0) (S' := sampleWithinAfter)
  (by unfold Open; exact ⟨(sampleWithinAfter.conns 0).get (by decide +kernel), (Option.some_get _).symm, by decide +kernel⟩)
  (vs := []) rfl (by decide +kernel) ⟨nofun, nofun⟩ nofun nofun
example := C124_drop sampleExt (S := sampleWithinAfter) (c := 0)
  (by unfold Open; exact ⟨(sampleWithinAfter.conns 0).get (by decide +kernel), (Option.some_get _).symm, by decide +kernel⟩)
/-- The task is cancelled in the middle of an answer. -/
example : (((Server.start sampleHost).withins sampleExt
    [.event (.accept 0), .event (.recv 0 sampleChoice sampleInitFrame), .event (.sent 0 10), .drop 0]).bind (·.conns 0)).map
      (fun k => (k.phase, k.wire.length)) = some (.closed, 10) := by decide +kernel
example := C124_each sampleEnvs sampleFleet_run (h := 1) (x := 1) rfl rfl (by intro x; simp [sampleFleetEvents])
example := C124_doors sampleEnvs sampleFleet_run (h := 2) (by intro x; simp [sampleFleetEvents])
example := C124_possible sampleEnvs (F := sampleFleet) (h := 1) (x := 1) rfl rfl .interrupt
example := C125_run_partial sampleExt (es := [.accept 0, .acceptFail])
  (Option.some_get (show ((Server.start sampleHost).run sampleExt [.accept 0, .acceptFail]).isSome by decide +kernel)).symm
  (by decide +kernel) 0
example := C125_stops_partial sampleExt (S := sampleStopping) (by decide +kernel) (ws := [.interrupt])
  (Option.some_get (show (sampleStopping.withins sampleExt [.interrupt]).isSome by decide +kernel)).symm (by simp)
example := C125_interrupt_violated sampleExt (S := sampleIdle) (by decide +kernel)
example := C125_failed_violated sampleExt (S := sampleIdle) (c := 0) (wire := []) (by decide +kernel) (by decide +kernel)
  (by decide +kernel) sampleChoice [sampleInitFrame, [1, 2, 3]] (by decide +kernel)
example := C125_again_violated sampleExt (S := sampleInterrupted) (c := 0) (wire := []) (by decide +kernel)
  (by decide +kernel) sampleChoice [sampleInitFrame, [1, 2, 3]] (by decide +kernel)

end Verif
