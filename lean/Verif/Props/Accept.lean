import Verif.Props.Segments
/-!
# C89: the server serves until it is asked to stop
-/

namespace Verif
open Py

variable {σ H : Type}

/-- C89, the part that holds: a run without a stop request in which accepting never fails ends with the accept loop
running, so that a new peer can connect and be served. -/
theorem C89_partial (env : Ext σ H) {s : Host σ} {S : Server σ} {es : List (Event σ)}
    (h : (Server.start s).run env es = some S) (h1 : .stop ∉ es) (h2 : .acceptFail ∉ es) :
    S.serving = true ∧ S.terminating = false ∧
    ∀ c, S.conns c = none → ∃ S', S.step env (.accept c) = some S' ∧ S'.serving = true ∧
      S'.conns c = some ⟨.waiting, []⟩ ∧ ∀ d, d ≠ c → S'.conns d = S.conns d := by
  obtain ⟨a, b, d⟩ := run_not_stopping h h1 h2 rfl rfl rfl
  refine ⟨d, a, fun c hc => ?_⟩
  have ht : (S.setConn c {}).terminating = false := a
  refine ⟨S.setConn c {}, ?_, d, setConn_same S c {}, fun e he => setConn_other S {} he⟩
  simp only [Server.step]
  rw [if_pos ⟨d, hc⟩, if_neg (by rw [ht]; decide)]

example := C89_partial sampleExt (s := sampleHost) (es := [.accept 0, .accept 1]) rfl (by simp) (by simp)

/-- C89, violated: one failure of accept ends the server, although nobody asked it to: all connections are closed, the
rest of the answers being sent is lost, nobody can connect or be served any more. -/
theorem C89_violated (env : Ext σ H) {s : Host σ} {S : Server σ} {es : List (Event σ)}
    (h : (Server.start s).run env es = some S) (h1 : .stop ∉ es) (h2 : .acceptFail ∉ es) :
    ∃ S', S.step env .acceptFail = some S' ∧ S'.terminating = false ∧ S'.serving = false ∧ S'.host = S.host ∧
      (∀ c, ¬ Open S' c ∧ sentOn S' c = sentOn S c ∧ toSend S' c = []) ∧
      (∀ c, S'.step env (.accept c) = none) ∧
      (∀ c ch raw, S'.step env (.recv c ch raw) = none) ∧ (∀ c n, S'.step env (.sent c n) = none) := by
  obtain ⟨a, b, d⟩ := run_not_stopping h h1 h2 rfl rfl rfl
  refine ⟨S.shutdown, by simp only [Server.step]; rw [if_pos d], a, rfl, rfl, fun c => ?_, fun c => ?_, fun c ch raw => ?_,
    fun c n => ?_⟩
  · unfold Open sentOn toSend
    simp only [Server.shutdown]
    cases hk : S.conns c with
    | none => simp
    | some k => simp
  · simp [Server.step, Server.shutdown]
  · simp only [Server.step, Server.shutdown]
    cases hk : S.conns c with
    | none => rfl
    | some k => simp
  · simp only [Server.step, Server.shutdown]
    cases hk : S.conns c with
    | none => rfl
    | some k => simp

example := C89_violated sampleExt sampleIdle_run (by simp) (by simp)

/-- C89: a connection in the middle of an answer when accept fails. -/
example :
    let run := [Event.accept 0, .recv 0 sampleChoice sampleInitFrame, .sent 0 20]
    (((Server.start sampleHost).run sampleExt run).map fun S => (S.serving, (toSend S 0).length)) = some (true, 124) ∧
    (((Server.start sampleHost).run sampleExt (run ++ [.acceptFail])).map fun S => (S.serving, (toSend S 0).length)) =
      some (false, 0) := by
  decide +kernel

end Verif
