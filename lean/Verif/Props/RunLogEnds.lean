import Verif.Props.RunLog
/-!
# The log of a whole run: warnings and the end (C127), and whose records they are (C128)
-/

namespace Verif
open Py

variable {σ H : Type} (p : Shown) (t : SocketTexts)

/-! ### Warnings -/

theorem warnings_append (l m : List LogRecord) : warnings (l ++ m) = warnings l ++ warnings m := List.filter_append ..

theorem end_warnings (S : Server σ) : warnings S.endRecords = [] := by
  unfold Server.endRecords
  cases S.terminating <;> rfl

theorem records_warnings (env : Ext σ H) (S : Server σ) (e : Event σ) (text : String) :
    (warnings (S.records p t env e text)).length = unanswered env S.host [e] + failedSends [e] := by
  cases e with
  | accept c => rfl
  | recv c ch raw =>
    show (warnings (_ ++ _)).length = _
    have h := C112_warnings p env ch S.host raw text none
    have he : warnings (S.chunkEnd (onInput env ch S.host raw).2) = [] := by
      unfold Server.chunkEnd
      split
      · rfl
      · exact end_warnings S
    rw [warnings_append, he, List.append_nil]
    have hu : unanswered env S.host [.recv c ch raw] + failedSends [Event.recv (σ := σ) c ch raw] =
        if answeredBy env S.host (.recv c ch raw) = [] then 1 else 0 := rfl
    have ha : answeredBy env S.host (.recv c ch raw) = match (onInput env ch S.host raw).2 with
            | .ok (some out) => [out]
            | _ => [] := rfl
    rw [hu]
    rcases h with ⟨⟨out, h1⟩, -, h2⟩ | ⟨h1, h2⟩
    · rw [h2, ha, h1]; rfl
    · rw [h2]
      have : answeredBy env S.host (.recv c ch raw) = [] := by
        rw [ha]
        rcases hr : (onInput env ch S.host raw).2 with _ | _ | out
        · rfl
        · rfl
        · exact absurd ⟨⟨out, hr⟩, rfl⟩ h1
      rw [this]; rfl
  | sent c n =>
    show (warnings (match S.conns c with
        | some ⟨.sending rest, _⟩ => if n = rest.length then S.endRecords else []
        | _ => [])).length = 0
    split
    · split
      · rw [end_warnings]; rfl
      · rfl
    · rfl
  | sendFail c =>
    show (warnings ([_] ++ S.endRecords)).length = 1
    rw [warnings_append, end_warnings]; rfl
  | eof c => rfl
  | other n d x => rfl
  | stop => rfl
  | cancelled => rfl
  | acceptFail => rfl

theorem unanswered_cons (env : Ext σ H) (s : Host σ) (e : Event σ) (es : List (Event σ)) :
    unanswered env s (e :: es) = unanswered env s [e] + unanswered env (hostAfter env s [e]) es := by
  cases e <;> (try exact (Nat.zero_add _).symm)
  rfl

theorem failedSends_cons (e : Event σ) (es : List (Event σ)) : failedSends (e :: es) = failedSends [e] + failedSends es := by
  cases e <;> first | rfl | exact (Nat.zero_add _).symm

theorem log_cons (env : Ext σ H) {S T : Server σ} {e : Event σ} (text : String) (es : List (Event σ × String))
    (h : S.step env e = some T) : S.log p t env ((e, text) :: es) = S.records p t env e text ++ T.log p t env es := by
  show (match S.step env e with | none => [] | some S' => S.records p t env e text ++ S'.log p t env es) = _
  rw [h]

/-- C127: over a whole run there are exactly as many warnings as chunks that were not answered and sends that failed. -/
theorem C127_warnings (env : Ext σ H) {s : Host σ} {S : Server σ} {es : List (Event σ × String)}
    (h : (Server.start s).run env (es.map Prod.fst) = some S) :
    (warnings (runLog p t env s es)).length = unanswered env s (es.map Prod.fst) + failedSends (es.map Prod.fst) := by
  have key : ∀ (es : List (Event σ × String)) (S S' : Server σ), S.run env (es.map Prod.fst) = some S' →
      (warnings (S.log p t env es)).length = unanswered env S.host (es.map Prod.fst) + failedSends (es.map Prod.fst) := by
    intro es
    induction es with
    | nil => intro S S' _; rfl
    | cons x es ih =>
      obtain ⟨e, text⟩ := x
      intro S S' h
      obtain ⟨T, h1, h2⟩ := run_cons h
      have hm : ((e, text) :: es).map Prod.fst = e :: es.map Prod.fst := rfl
      dsimp only at h1
      rw [log_cons p t env text es h1, warnings_append, List.length_append, records_warnings, ih T S' h2, hm,
        unanswered_cons env S.host e (es.map Prod.fst), failedSends_cons e (es.map Prod.fst), step_host h1]
      omega
  exact key es _ _ h

/-- C127: the log begins with the listening socket, and every send that failed is in it with the text of the exception. -/
theorem C127_lost (env : Ext σ H) {s : Host σ} {S : Server σ} {es : List (Event σ × String)}
    (h : (Server.start s).run env (es.map Prod.fst) = some S) :
    (runLog p t env s es).head? = some ⟨.info, "< server=" ++ t.server⟩ ∧
    ∀ c text, (.sendFail c, text) ∈ es → ⟨.warning, "! #" ++ text⟩ ∈ runLog p t env s es := by
  refine ⟨rfl, fun c text hm => List.mem_cons_of_mem _ ?_⟩
  have key : ∀ (es : List (Event σ × String)) (S S' : Server σ), S.run env (es.map Prod.fst) = some S' →
      (.sendFail c, text) ∈ es → ⟨.warning, "! #" ++ text⟩ ∈ S.log p t env es := by
    intro es
    induction es with
    | nil => intro S S' _ hm; cases hm
    | cons x es ih =>
      obtain ⟨e, text'⟩ := x
      intro S S' h hm
      obtain ⟨T, h1, h2⟩ := run_cons h
      dsimp only at h1
      rw [log_cons p t env text' es h1, List.mem_append]
      rcases List.mem_cons.1 hm with hm | hm
      · cases hm
        exact .inl List.mem_cons_self
      · exact .inr (ih T S' h2 hm)
  exact key es _ _ h hm

/-! ### The end -/

/-- The record of the end of a connection. -/
theorem chunk_not_end (env : Ext σ H) (ch : Choice) (s : Host σ) (raw : Bytes) (failure : String) :
    ⟨.debug, "| terminating"⟩ ∉ chunkLog p env ch s raw failure none := by
  rw [chunkLog_cut]
  intro hm
  rcases List.mem_cons.1 hm with hm | hm
  · cases hm
  rcases List.mem_cons.1 hm with hm | hm
  · exact read_not_end raw (congrArg LogRecord.text hm).symm
  rcases List.mem_append.1 hm with hm | hm
  · rcases inputLog_ordinary p env ch s raw _ hm rfl with ⟨c, l, h1, -, -⟩ | ⟨b, hb⟩
    · injection h1 with h1 _
      revert h1; decide
    · have e := congrArg String.toList hb
      rw [String.toList_append] at e
      injection e with e _
      revert e; decide
  · rcases hr : (onInput env ch s raw).2 with _ | _ | out <;> rw [hr] at hm
    · have := List.mem_singleton.1 hm
      cases this
    · cases hm
    · exact sent_not_end out (congrArg LogRecord.text (List.mem_singleton.1 hm)).symm

theorem mem_end (S : Server σ) : ⟨.debug, "| terminating"⟩ ∈ S.endRecords ↔ S.terminating = true := by
  unfold Server.endRecords
  cases S.terminating <;> simp

theorem passDone_cancelling (S : Server σ) (c : Nat) (k : Conn) :
    (S.passDone c k).cancelling = true ↔ S.cancelling = true ∨ S.terminating = true := by
  unfold Server.passDone
  cases S.terminating <;> simp [Server.setConn]

theorem step_end {env : Ext σ H} {S S' : Server σ} {e : Event σ} (text : String) (h : S.step env e = some S') :
    S'.cancelling = true ↔ S.cancelling = true ∨ ⟨.debug, "| terminating"⟩ ∈ S.records p t env e text := by
  cases e with
  | accept c =>
    have hr : ⟨.debug, "| terminating"⟩ ∉ S.records p t env (.accept c) text := by
      intro hm
      exact accept_not_end (t.conn c) (congrArg LogRecord.text (List.mem_singleton.1 hm)).symm
    simp only [Server.step] at h
    split at h
    · simp only [Option.some.injEq] at h
      subst h
      simp only [hr, or_false]
      split <;> rfl
    · simp at h
  | recv c ch raw =>
    have hr : ⟨.debug, "| terminating"⟩ ∈ S.records p t env (.recv c ch raw) text ↔
        ⟨.debug, "| terminating"⟩ ∈ S.chunkEnd (onInput env ch S.host raw).2 := by
      show _ ∈ _ ++ _ ↔ _
      rw [List.mem_append]
      exact or_iff_right (chunk_not_end p env ch S.host raw text)
    rw [hr]
    simp only [Server.step] at h
    split at h
    · split at h
      · simp only [Option.some.injEq] at h
        subst h
        unfold Server.handle Server.chunkEnd
        dsimp only
        rcases (onInput env ch S.host raw).2 with er | _ | out
        · dsimp only
          rw [passDone_cancelling, mem_end]
        · dsimp only
          rw [passDone_cancelling, mem_end]
        · simp [Server.setConn]
      · simp at h
    · simp at h
  | sent c n =>
    simp only [Server.step] at h
    split at h
    · next k hk =>
      obtain ⟨ph, w⟩ := k
      split at h
      · next rest hp =>
        simp only at hp
        subst hp
        have hr : S.records p t env (.sent c n) text = if n = rest.length then S.endRecords else [] := by
          unfold Server.records
          dsimp only
          rw [hk]
        rw [hr]
        split at h
        · next hn =>
          simp only [Option.some.injEq] at h; subst h
          rw [if_neg (by omega)]
          simp [Server.setConn]
        · split at h
          · next hn =>
            simp only [Option.some.injEq] at h; subst h
            rw [if_pos hn, passDone_cancelling, mem_end]
          · simp at h
      · simp at h
    · simp at h
  | sendFail c =>
    have hr : ⟨.debug, "| terminating"⟩ ∈ S.records p t env (.sendFail c) text ↔ S.terminating = true := by
      show _ ∈ _ :: _ ↔ _
      rw [List.mem_cons, mem_end]
      exact or_iff_right (by intro h; cases h)
    rw [hr]
    simp only [Server.step] at h
    split at h
    · split at h
      · simp only [Option.some.injEq] at h; subst h
        rw [passDone_cancelling]
      · simp at h
    · simp at h
  | eof c =>
    simp only [Server.step] at h
    split at h
    · split at h
      · simp only [Option.some.injEq] at h; subst h
        simp [Server.setConn, Server.records]
      · simp at h
    · simp at h
  | other n d x =>
    simp only [Server.step] at h
    split at h
    · simp only [Option.some.injEq] at h; subst h; simp [Server.records]
    · simp at h
  | stop =>
    simp only [Server.step, Option.some.injEq] at h; subst h; simp [Server.records]
  | cancelled =>
    simp only [Server.step] at h
    split at h
    · simp only [Option.some.injEq] at h; subst h; simp [Server.records, Server.shutdown]
    · simp at h
  | acceptFail =>
    simp only [Server.step] at h
    split at h
    · simp only [Option.some.injEq] at h; subst h; simp [Server.records, Server.shutdown]
    · simp at h

/-- C127: the log says that the host is terminating if and only if a connection handler has cancelled the accept loop. -/
theorem C127_end (env : Ext σ H) {s : Host σ} {S : Server σ} {es : List (Event σ × String)}
    (h : (Server.start s).run env (es.map Prod.fst) = some S) :
    ⟨.debug, "| terminating"⟩ ∈ runLog p t env s es ↔ S.cancelling = true := by
  have key : ∀ (es : List (Event σ × String)) (S S' : Server σ), S.run env (es.map Prod.fst) = some S' →
      (S'.cancelling = true ↔ S.cancelling = true ∨ ⟨.debug, "| terminating"⟩ ∈ S.log p t env es) := by
    intro es
    induction es with
    | nil =>
      intro S S' h
      simp only [List.map_nil, Server.run, Option.some.injEq] at h
      subst h
      exact ⟨.inl, fun h => h.elim id fun h => by cases h⟩
    | cons x es ih =>
      obtain ⟨e, text⟩ := x
      intro S S' h
      obtain ⟨T, h1, h2⟩ := run_cons h
      rw [log_cons p t env text es h1, List.mem_append, ih T S' h2, step_end p t text h1, or_assoc]
  rw [key es _ _ h]
  unfold runLog
  rw [List.mem_cons]
  constructor
  · rintro (h | h)
    · cases h
    · exact .inr h
  · rintro (h | h)
    · cases h
    · exact .inr h

theorem passDone_unstopped {S : Server σ} (h1 : S.terminating = false) (h2 : S.cancelling = false) (c : Nat) (k : Conn) :
    (S.passDone c k).terminating = false ∧ (S.passDone c k).cancelling = false := by
  unfold Server.passDone
  rw [h1]
  exact ⟨h1, h2⟩

theorem step_unstopped {env : Ext σ H} {S S' : Server σ} {e : Event σ} (h : S.step env e = some S') (he : e ≠ .stop)
    (h1 : S.terminating = false) (h2 : S.cancelling = false) : S'.terminating = false ∧ S'.cancelling = false := by
  cases e with
  | accept c =>
    simp only [Server.step] at h
    split at h
    · simp only [Option.some.injEq] at h; subst h
      split <;> exact ⟨h1, h2⟩
    · simp at h
  | recv c ch raw =>
    simp only [Server.step] at h
    split at h
    · split at h
      · simp only [Option.some.injEq] at h; subst h
        unfold Server.handle
        dsimp only
        rcases (onInput env ch S.host raw).2 with er | _ | out
        · exact passDone_unstopped (S := { S with host := (onInput env ch S.host raw).1 }) h1 h2 _ _
        · exact passDone_unstopped (S := { S with host := (onInput env ch S.host raw).1 }) h1 h2 _ _
        · exact ⟨h1, h2⟩
      · simp at h
    · simp at h
  | sent c n =>
    simp only [Server.step] at h
    split at h
    · split at h
      · split at h
        · simp only [Option.some.injEq] at h; subst h; exact ⟨h1, h2⟩
        · split at h
          · simp only [Option.some.injEq] at h; subst h; exact passDone_unstopped h1 h2 _ _
          · simp at h
      · simp at h
    · simp at h
  | sendFail c =>
    simp only [Server.step] at h
    split at h
    · split at h
      · simp only [Option.some.injEq] at h; subst h; exact passDone_unstopped h1 h2 _ _
      · simp at h
    · simp at h
  | eof c =>
    simp only [Server.step] at h
    split at h
    · split at h
      · simp only [Option.some.injEq] at h; subst h; exact ⟨h1, h2⟩
      · simp at h
    · simp at h
  | other n d x =>
    simp only [Server.step] at h
    split at h
    · simp only [Option.some.injEq] at h; subst h; exact ⟨h1, h2⟩
    · simp at h
  | stop => exact absurd rfl he
  | cancelled =>
    simp only [Server.step] at h
    split at h
    · next hc => rw [h2] at hc; exact absurd hc.2 Bool.false_ne_true
    · simp at h
  | acceptFail =>
    simp only [Server.step] at h
    split at h
    · simp only [Option.some.injEq] at h; subst h; exact ⟨h1, h2⟩
    · simp at h

theorem run_unstopped {env : Ext σ H} {S S' : Server σ} {es : List (Event σ)} (h : S.run env es = some S') (he : .stop ∉ es)
    (h1 : S.terminating = false) (h2 : S.cancelling = false) : S'.terminating = false ∧ S'.cancelling = false := by
  induction es generalizing S with
  | nil => simp only [Server.run, Option.some.injEq] at h; subst h; exact ⟨h1, h2⟩
  | cons e es ih =>
    obtain ⟨T, t1, t2⟩ := run_cons h
    simp only [List.mem_cons, not_or] at he
    obtain ⟨k1, k2⟩ := step_unstopped t1 (fun hh => he.1 hh.symm) h1 h2
    exact ih t2 he.2 k1 k2

/-- C127: as long as nobody asks the host to stop, the log does not say that it is terminating. -/
theorem C127_running (env : Ext σ H) {s : Host σ} {S : Server σ} {es : List (Event σ × String)}
    (h : (Server.start s).run env (es.map Prod.fst) = some S) (hs : .stop ∉ es.map Prod.fst) :
    ⟨.debug, "| terminating"⟩ ∉ runLog p t env s es := by
  rw [C127_end p t env h]
  have := run_unstopped h hs rfl rfl
  rw [this.2]; exact Bool.false_ne_true

/-! ### Whose records they are -/

/-- The same server with two of its connections exchanged. -/
def Server.swapped (S : Server σ) (c d : Nat) : Server σ := { S with conns := fun x => S.conns (exchanged c d x) }

theorem exchanged_twice (c d x : Nat) : exchanged c d (exchanged c d x) = x := by
  unfold exchanged
  by_cases h1 : x = c
  · subst h1
    rw [if_pos rfl]
    by_cases h2 : d = x
    · rw [if_pos h2]; exact h2
    · rw [if_neg h2, if_pos rfl]
  · rw [if_neg h1]
    by_cases h2 : x = d
    · rw [if_pos h2, if_pos rfl]; exact h2.symm
    · rw [if_neg h2, if_neg h1, if_neg h2]

theorem swapped_conns (S : Server σ) (c d x : Nat) : (S.swapped c d).conns (exchanged c d x) = S.conns x := by
  show S.conns (exchanged c d (exchanged c d x)) = _
  rw [exchanged_twice]

theorem swapped_set (S : Server σ) (c d x : Nat) (k : Conn) :
    (S.swapped c d).setConn (exchanged c d x) k = (S.setConn x k).swapped c d := by
  unfold Server.setConn Server.swapped
  congr 1
  funext y
  have : y = exchanged c d x ↔ exchanged c d y = x :=
    ⟨fun h => by rw [h, exchanged_twice], fun h => by rw [← h, exchanged_twice]⟩
  simp only [this]

theorem swapped_done (S : Server σ) (c d x : Nat) (k : Conn) :
    (S.swapped c d).passDone (exchanged c d x) k = (S.passDone x k).swapped c d := by
  unfold Server.passDone
  rw [swapped_set, swapped_set]
  show (if S.terminating then _ else _) = _
  cases S.terminating <;> rfl

theorem swapped_shutdown (S : Server σ) (c d : Nat) : (S.swapped c d).shutdown = S.shutdown.swapped c d := rfl

theorem swapped_step {env : Ext σ H} {S S' : Server σ} {e : Event σ} (c d : Nat) (h : S.step env e = some S') :
    (S.swapped c d).step env (e.at (exchanged c d)) = some (S'.swapped c d) := by
  cases e with
  | accept x =>
    simp only [Event.at, Server.step, swapped_conns, swapped_set] at h ⊢
    split at h
    · next hn =>
      rw [if_pos (show (S.swapped c d).serving = true ∧ S.conns x = none from hn)]
      simp only [Option.some.injEq] at h ⊢
      subst h
      show (if S.terminating then _ else _) = _
      cases hT : S.terminating with
      | true => rw [if_pos rfl, if_pos (show (S.setConn x {}).terminating = true from hT)]; rfl
      | false =>
        rw [if_neg Bool.false_ne_true, if_neg (show ¬ (S.setConn x {}).terminating = true by
          rw [show (S.setConn x {}).terminating = S.terminating from rfl, hT]; exact Bool.false_ne_true)]
    · simp at h
  | recv x ch raw =>
    simp only [Event.at, Server.step, swapped_conns] at h ⊢
    split at h
    · next k hk =>
      split at h
      · next hw =>
        rw [if_pos hw]
        simp only [Option.some.injEq] at h ⊢
        subst h
        unfold Server.handle
        dsimp only
        rw [show (S.swapped c d).host = S.host from rfl]
        rcases (onInput env ch S.host raw).2 with er | _ | out
        · exact swapped_done { S with host := (onInput env ch S.host raw).1 } c d x k
        · exact swapped_done { S with host := (onInput env ch S.host raw).1 } c d x k
        · exact swapped_set { S with host := (onInput env ch S.host raw).1 } c d x _
      · simp at h
    · simp at h
  | sent x n =>
    simp only [Event.at, Server.step, swapped_conns, swapped_set, swapped_done] at h ⊢
    split at h
    · next k hk =>
      split at h
      · next rest hp =>
        split at h
        · next hn =>
          rw [if_pos hn]
          simp only [Option.some.injEq] at h ⊢
          subst h; rfl
        · next hn =>
          rw [if_neg hn]
          split at h
          · next hn =>
            rw [if_pos hn]
            simp only [Option.some.injEq] at h ⊢
            subst h; rfl
          · simp at h
      · simp at h
    · simp at h
  | sendFail x =>
    simp only [Event.at, Server.step, swapped_conns, swapped_done] at h ⊢
    split at h
    · next k hk =>
      split at h
      · simp only [Option.some.injEq] at h ⊢
        subst h; rfl
      · simp at h
    · simp at h
  | eof x =>
    simp only [Event.at, Server.step, swapped_conns, swapped_set] at h ⊢
    split at h
    · next k hk =>
      split at h
      · next hw =>
        rw [if_pos hw]
        simp only [Option.some.injEq] at h ⊢
        subst h; rfl
      · simp at h
    · simp at h
  | other n dd x =>
    simp only [Event.at, Server.step] at h ⊢
    split at h
    · next hn =>
      rw [if_pos (show (S.swapped c d).host.ids ≤ n from hn)]
      simp only [Option.some.injEq] at h ⊢
      subst h; rfl
    · simp at h
  | stop =>
    simp only [Event.at, Server.step, Option.some.injEq] at h ⊢
    subst h; rfl
  | cancelled =>
    simp only [Event.at, Server.step] at h ⊢
    split at h
    · next hn =>
      rw [if_pos (show (S.swapped c d).serving = true ∧ (S.swapped c d).cancelling = true from hn)]
      simp only [Option.some.injEq] at h ⊢
      subst h; rfl
    · simp at h
  | acceptFail =>
    simp only [Event.at, Server.step] at h ⊢
    split at h
    · next hn =>
      rw [if_pos (show (S.swapped c d).serving = true from hn)]
      simp only [Option.some.injEq] at h ⊢
      subst h; rfl
    · simp at h

theorem swapped_records (env : Ext σ H) (S S' : Server σ) (e : Event σ) (c d : Nat) (text : String)
    (h : S.step env e = some S') (hc : S.conns c ≠ none) (hd : S.conns d ≠ none) :
    (S.swapped c d).records p t env (e.at (exchanged c d)) text = S.records p t env e text := by
  cases e with
  | accept x =>
    have hx : exchanged c d x = x := by
      simp only [Server.step] at h
      split at h
      · next hn =>
        unfold exchanged
        rw [if_neg (by rintro rfl; exact hc hn.2), if_neg (by rintro rfl; exact hd hn.2)]
      · simp at h
    simp only [Event.at, hx]
    rfl
  | recv x ch raw => rfl
  | sent x n =>
    simp only [Event.at, Server.records, swapped_conns]
    rfl
  | sendFail x => rfl
  | eof x => rfl
  | other n dd x => rfl
  | stop => rfl
  | cancelled => rfl
  | acceptFail => rfl

theorem swapped_log (env : Ext σ H) (c d : Nat) : ∀ (es : List (Event σ × String)) (S S' : Server σ),
    S.run env (es.map Prod.fst) = some S' → S.conns c ≠ none → S.conns d ≠ none →
    (S.swapped c d).run env ((es.map fun x => (x.1.at (exchanged c d), x.2)).map Prod.fst) = some (S'.swapped c d) ∧
    (S.swapped c d).log p t env (es.map fun x => (x.1.at (exchanged c d), x.2)) = S.log p t env es
  | [], S, S', h, _, _ => by
    simp only [List.map_nil, Server.run, Option.some.injEq] at h
    subst h
    exact ⟨rfl, rfl⟩
  | (e, text) :: es, S, S', h, hc, hd => by
    obtain ⟨T, h1, h2⟩ := run_cons h
    dsimp only at h1
    obtain ⟨i1, i2⟩ := swapped_log env c d es T S' h2 (step_exists h1 hc) (step_exists h1 hd)
    have hs := swapped_step c d h1
    constructor
    · show ((S.swapped c d).step env (e.at (exchanged c d))).bind _ = _
      rw [hs]
      exact i1
    · rw [log_cons p t env text es h1]
      show Server.log p t env _ ((e.at (exchanged c d), text) :: es.map fun x => (x.1.at (exchanged c d), x.2)) = _
      rw [log_cons p t env text _ hs, i2, swapped_records p t env S T e c d text h1 hc hd]

theorem log_append (env : Ext σ H) : ∀ (pre es : List (Event σ × String)) (S S' : Server σ), S.run env (pre.map Prod.fst) = some S' →
    S.log p t env (pre ++ es) = S.log p t env pre ++ S'.log p t env es
  | [], es, S, S', h => by
    simp only [List.map_nil, Server.run, Option.some.injEq] at h
    subst h
    rfl
  | (e, text) :: pre, es, S, S', h => by
    obtain ⟨T, h1, h2⟩ := run_cons h
    dsimp only at h1
    rw [List.cons_append, log_cons p t env text _ h1, log_cons p t env text _ h1, log_append env pre es T S' h2, List.append_assoc]

/-- C128: the log does not tell whose bytes it shows.  Whenever two peers have connected and nothing was exchanged with them yet,
whatever happens afterwards: if what happens at the one connection had happened at the other and vice versa, every peer would have
got the other's bytes, but the log would be the same, record by record. -/
theorem C128_who_violated (env : Ext σ H) {s : Host σ} {S S' : Server σ} {pre es : List (Event σ × String)} {c d : Nat}
    (h0 : (Server.start s).run env (pre.map Prod.fst) = some S) (hc : S.conns c = some ⟨.waiting, []⟩)
    (hd : S.conns d = some ⟨.waiting, []⟩) (h : S.run env (es.map Prod.fst) = some S') :
    ∃ S'', S.run env ((es.map fun x => (x.1.at (exchanged c d), x.2)).map Prod.fst) = some S'' ∧
      runLog p t env s (pre ++ es.map fun x => (x.1.at (exchanged c d), x.2)) = runLog p t env s (pre ++ es) ∧
      S''.host = S'.host ∧ sentOn S'' c = sentOn S' d ∧ sentOn S'' d = sentOn S' c := by
  have hs : S.swapped c d = S := by
    unfold Server.swapped
    obtain ⟨_, conns, _, _, _⟩ := S
    dsimp only at hc hd ⊢
    congr 1
    funext x
    unfold exchanged
    by_cases h1 : x = c
    · rw [if_pos h1, h1, hc, hd]
    · rw [if_neg h1]
      by_cases h2 : x = d
      · rw [if_pos h2, h2, hc, hd]
      · rw [if_neg h2]
  obtain ⟨k1, k2⟩ := swapped_log p t env c d es S S' h (by rw [hc]; simp) (by rw [hd]; simp)
  rw [hs] at k1 k2
  refine ⟨_, k1, ?_, rfl, ?_, ?_⟩
  · unfold runLog
    rw [log_append p t env pre _ _ _ h0, log_append p t env pre _ _ _ h0, k2]
  · unfold sentOn Server.swapped
    dsimp only
    rw [show exchanged c d c = d from if_pos rfl]
  · unfold sentOn Server.swapped
    dsimp only
    rw [show exchanged c d d = c by unfold exchanged; by_cases h : d = c
                                    · rw [if_pos h]; exact h
                                    · rw [if_neg h, if_pos rfl]]

theorem answered_one (env : Ext σ H) (c : Nat) : ∀ (es : List (Event σ)) (s : Host σ),
    (∀ d ch raw, .recv d ch raw ∈ es → d = c) → (answered env s es).flatten = (answersTo env c s es).flatten
  | [], _, _ => rfl
  | e :: es, s, h => by
    have ih := answered_one env c es (hostAfter env s [e]) fun d ch raw hm => h d ch raw (List.mem_cons_of_mem _ hm)
    rw [answersTo_cons]
    show (answeredBy env s e ++ answered env (hostAfter env s [e]) es).flatten = _
    rw [List.flatten_append, List.flatten_append, ih]
    congr 1
    cases e with
    | recv d ch raw =>
      have hdc : d = c := h d ch raw (by simp)
      show (match (onInput env ch s raw).2 with
            | .ok (some out) => [out]
            | _ => []).flatten = (if d = c then answer env ch s raw :: [] else []).flatten
      rw [if_pos hdc]
      unfold answer
      rcases (onInput env ch s raw).2 with _ | _ | out <;> simp
    | _ => rfl

/-- C128: if everything was read from one connection and no send on it failed, the log tells what its peer got: the bytes shown
as sent, in order, all of them unless a send was under way. -/
theorem C128_one_partial (env : Ext σ H) {s : Host σ} {S : Server σ} {es : List (Event σ × String)} {c : Nat}
    (h : (Server.start s).run env (es.map Prod.fst) = some S) (h1 : ∀ d ch raw, .recv d ch raw ∈ es.map Prod.fst → d = c)
    (h2 : .sendFail c ∉ es.map Prod.fst) :
    ∃ outs : List Bytes, recordsOf sentShown (runLog p t env s es) = outs.map sentShown ∧ sentOn S c <+: outs.flatten ∧
      (Open S c → sentOn S c ++ toSend S c = outs.flatten) := by
  have hr := C50_replies env h c h2
  rw [← answered_one env c _ s h1] at hr
  exact ⟨_, C127_sent p t env h, hr.2, hr.1⟩

/-! ### Concrete cases -/

/-- Texts of sockets as Python shows them. -/
def sampleSockets : SocketTexts :=
  ⟨"<socket.socket fd=6, family=2, type=1, proto=0, laddr=('127.0.0.1', 1234)>",
    fun c => "<socket.socket fd=" ++ toString (7 + c) ++ ", family=2, type=1, proto=0>"⟩

/-- A run with two peers: a handshake answered, a response nobody waits for, an answer that cannot be sent, a stop. -/
def sampleLogged : List (Event Nat × String) :=
  [(.accept 0, ""), (.accept 1, ""), (.recv 0 sampleChoice sampleTcpFrame, ""), (.recv 1 sampleChoice (List.replicate 15 1), ""),
    (.sent 0 5, ""), (.recv 1 sampleChoice sampleTcpFrame, ""), (.sendFail 1, "Broken pipe"), (.stop, ""), (.sendFail 0, "reset")]

theorem sampleLogged_runs : ((Server.start sampleHost).run sampleExt (sampleLogged.map Prod.fst)).isSome := by decide +kernel

def sampleLoggedEnd : Server Nat := ((Server.start sampleHost).run sampleExt (sampleLogged.map Prod.fst)).get sampleLogged_runs

theorem sampleLogged_run : (Server.start sampleHost).run sampleExt (sampleLogged.map Prod.fst) = some sampleLoggedEnd :=
  (Option.some_get _).symm

example := C127_read shownAscii sampleSockets sampleExt sampleLogged_run
example := C127_sent shownAscii sampleSockets sampleExt sampleLogged_run
example := C127_accepted shownAscii sampleSockets sampleExt sampleLogged_run
example := C127_wire shownAscii sampleSockets sampleExt sampleLogged_run 0
example := C127_warnings shownAscii sampleSockets sampleExt sampleLogged_run
example := C127_lost shownAscii sampleSockets sampleExt sampleLogged_run
example := C127_end shownAscii sampleSockets sampleExt sampleLogged_run

/-- The warnings, the number of records and the last record of that run. -/
example : (warnings (runLog shownAscii sampleSockets sampleExt sampleHost sampleLogged)).map (·.text) =
      ["< response id 72340172838076673 not registered", "! #Broken pipe", "! #reset"] ∧
    (runLog shownAscii sampleSockets sampleExt sampleHost sampleLogged).length = 27 ∧
    (runLog shownAscii sampleSockets sampleExt sampleHost sampleLogged).getLast? = some ⟨.debug, "| terminating"⟩ := by
  decide +kernel

/-- Two answers, three warnings, five bytes sent. -/
example : (answered sampleExt sampleHost (sampleLogged.map Prod.fst)).length = 2 ∧
    unanswered sampleExt sampleHost (sampleLogged.map Prod.fst) + failedSends (sampleLogged.map Prod.fst) = 3 ∧
    (sentOn sampleLoggedEnd 0).length = 5 ∧ sampleLoggedEnd.cancelling = true := by decide +kernel

theorem samplePair_runs : ((Server.start sampleHost).run sampleExt ((sampleLogged.take 2).map Prod.fst)).isSome := by
  decide +kernel

def samplePair : Server Nat := ((Server.start sampleHost).run sampleExt ((sampleLogged.take 2).map Prod.fst)).get samplePair_runs

theorem samplePair_run : (Server.start sampleHost).run sampleExt ((sampleLogged.take 2).map Prod.fst) = some samplePair :=
  (Option.some_get _).symm

theorem sampleRest_runs : (samplePair.run sampleExt ((sampleLogged.drop 2).map Prod.fst)).isSome := by decide +kernel

def sampleRestEnd : Server Nat := (samplePair.run sampleExt ((sampleLogged.drop 2).map Prod.fst)).get sampleRest_runs

/-- The first peer got five bytes, the second none: with the peers exchanged the log would be the same. -/
example := C128_who_violated shownAscii sampleSockets sampleExt samplePair_run (c := 0) (d := 1) (by decide +kernel)
  (by decide +kernel) (es := sampleLogged.drop 2) (S' := sampleRestEnd) (Option.some_get _).symm

example : (sentOn sampleRestEnd 0).length = 5 ∧ sentOn sampleRestEnd 1 = [] := by decide +kernel

theorem sampleAlone_runs : ((Server.start sampleHost).run sampleExt
    (([(.accept 0, ""), (.recv 0 sampleChoice sampleTcpFrame, ""), (.sent 0 5, "")] : List (Event Nat × String)).map Prod.fst)).isSome := by
  decide +kernel

example := C128_one_partial shownAscii sampleSockets sampleExt (c := 0) (es := [(.accept 0, ""), (.recv 0 sampleChoice sampleTcpFrame, ""), (.sent 0 5, "")])
  (Option.some_get sampleAlone_runs).symm
  (by intro d ch raw h; simp at h; exact h.1) (by simp)

example := C127_running shownAscii sampleSockets sampleExt (es := [(.accept 0, ""), (.recv 0 sampleChoice sampleTcpFrame, ""), (.sent 0 5, "")])
  (Option.some_get sampleAlone_runs).symm (by simp)

end Verif
