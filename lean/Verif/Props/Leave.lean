import Verif.Spec.Leave
import Verif.Lemmas.HostInv
import Verif.Props.Lifecycle
import Verif.Props.Server
/-!
# C121: a handler that raises what is not an `Exception`
-/

namespace Verif
open Py

variable {σ H : Type}

theorem restCall_request {env : Ext σ H} {raw body : Bytes} {request : OutboundRequest} (h : IsRequest raw request body) :
    restCall env raw = (if request.action = "internal:extensions/restexecuteonextensiontaction" then
        match ExtensionRestRequest.readFrom {} body with
        | .error _ => none
        | .ok (req, _) =>
          match req.method with
          | none => none
          | some m => (env.registry.dispatch (m.name ++ " " ++ req.path)).map fun h => (h, req)
      else none) := by
  obtain ⟨bl, hd, rest, h1, h2, h3⟩ := (parsesAsRequest_iff 0).1 h.1
  obtain ⟨e, _⟩ := request_readFrom_ok h3
  have hq := h.2
  rw [e] at hq
  unfold restCall
  simp only [h2, h1]
  rw [if_pos hq]
  simp only [h3]
  rfl

theorem restCall_some {env : Ext σ H} {raw : Bytes} {h : H} {q : ExtensionRestRequest} (hc : restCall env raw = some (h, q)) :
    ∃ request body, IsRequest raw request body := by
  unfold restCall at hc
  split at hc
  · cases hc
  · next hd input h2 =>
    split at hc
    · next hq =>
      split at hc
      · cases hc
      · next bl h1 =>
        split at hc
        · cases hc
        · next request body h3 =>
          obtain ⟨e, _⟩ := request_readFrom_ok h3
          refine ⟨request, body, (parsesAsRequest_iff 0).2 ⟨bl, hd, input, ?_, h2, h3⟩, by rw [e]; exact hq⟩
          rw [← h1]
          rfl
    · cases hc

theorem departs_iff {env : Ext σ H} {leaves : H → σ → ExtensionRestRequest → Option Base} {x : σ} {raw : Bytes} {b : Base} :
    Departs env leaves x raw b ↔ ∃ h q, restCall env raw = some (h, q) ∧ leaves h x q = some b := by
  constructor
  · rintro ⟨request, body, q, rest, m, h, h1, h2, h3, h4, h5, h6⟩
    refine ⟨h, q, ?_, h6⟩
    rw [restCall_request h1, if_pos h2]
    simp only [h3, h4, h5]
    rfl
  · rintro ⟨h, q, hc, h6⟩
    obtain ⟨request, body, h1⟩ := restCall_some hc
    rw [restCall_request h1] at hc
    split at hc
    · next h2 =>
      split at hc
      · cases hc
      · next q' rest h3 =>
        split at hc
        · cases hc
        · next m h4 =>
          obtain ⟨h', h5, e⟩ := Option.map_eq_some_iff.1 hc
          simp only [Prod.mk.injEq] at e
          obtain ⟨rfl, rfl⟩ := e
          exact ⟨request, body, q', rest, m, h', h1, h2, h3, h4, h5, h6⟩
    · cases hc

theorem hostLeft_departs {env : Ext σ H} {leaves : H → σ → ExtensionRestRequest → Option Base} {s : Host σ} {raw : Bytes} {b : Base}
    (hd : Departs env leaves s.ext raw b) (ch : Choice) : ∃ x, hostLeft env ch s raw = { s with ids := s.ids + 2, ext := x } := by
  obtain ⟨request, body, q, rest, m, h, h1, h2, h3, h4, h5, h6⟩ := hd
  refine ⟨(env.run h s.ext q).1, ?_⟩
  unfold hostLeft
  rw [onInput_request h1]
  unfold handleRequest
  rw [if_neg (by rw [h2]; decide +kernel), if_pos h2]
  unfold handleRest Registry.handle
  simp only [h3, h4, h5]

theorem stepAny_departs {env : Ext σ H} {leaves : H → σ → ExtensionRestRequest → Option Base} {S : Server σ} {c : Nat} {k : Conn}
    {ch : Choice} {raw : Bytes} {b : Base} (hc : S.conns c = some k) (hp : k.phase = .waiting) (hr : raw ≠ [])
    (hl : raw.length ≤ 10240) (hd : Departs env leaves S.host.ext raw b) :
    S.stepAny env leaves (.recv c ch raw) = some (S.leave env c k ch raw b) := by
  obtain ⟨h, q, h1, h2⟩ := departs_iff.1 hd
  simp only [Server.stepAny, hc, h1, h2]
  rw [if_pos ⟨hp, hr, hl⟩]

/-- A step is one of the main model, or a handler has left. -/
theorem stepAny_cases {env : Ext σ H} {leaves : H → σ → ExtensionRestRequest → Option Base} {S S' : Server σ} {e : Event σ}
    (h : S.stepAny env leaves e = some S') :
    S.step env e = some S' ∨ ∃ c ch raw k b, e = .recv c ch raw ∧ S.conns c = some k ∧ k.phase = .waiting ∧
      Departs env leaves S.host.ext raw b ∧ S' = S.leave env c k ch raw b := by
  cases e with
  | recv c ch raw =>
    simp only [Server.stepAny] at h
    split at h
    · cases h
    · next k hk =>
      split at h
      · exact .inl h
      · next hh q hq =>
        split at h
        · exact .inl h
        · next b hb =>
          split at h
          · next hw =>
            simp only [Option.some.injEq] at h
            exact .inr ⟨c, ch, raw, k, b, rfl, hk, hw.1, departs_iff.2 ⟨hh, q, hq, hb⟩, h.symm⟩
          · cases h
  | accept c => exact .inl h
  | sent c n => exact .inl h
  | sendFail c => exact .inl h
  | eof c => exact .inl h
  | other n d x => exact .inl h
  | stop => exact .inl h
  | cancelled => exact .inl h
  | acceptFail => exact .inl h

theorem runAny_cons {env : Ext σ H} {leaves : H → σ → ExtensionRestRequest → Option Base} {S S' : Server σ} {e : Event σ}
    {es : List (Event σ)} (h : S.runAny env leaves (e :: es) = some S') :
    ∃ T, S.stepAny env leaves e = some T ∧ T.runAny env leaves es = some S' := by
  simp only [Server.runAny] at h
  exact Option.bind_eq_some_iff.1 h

theorem stepAny_none {env : Ext σ H} {leaves : H → σ → ExtensionRestRequest → Option Base} (hn : ∀ h x q, leaves h x q = none)
    (S : Server σ) (e : Event σ) : S.stepAny env leaves e = S.step env e := by
  cases e with
  | recv c ch raw =>
    simp only [Server.stepAny, hn]
    split
    · next hk => simp [Server.step, hk]
    · split <;> rfl
  | accept c => rfl
  | sent c n => rfl
  | sendFail c => rfl
  | eof c => rfl
  | other n d x => rfl
  | stop => rfl
  | cancelled => rfl
  | acceptFail => rfl

/-- **C121** (`Exception`s).  If no handler raises anything but `Exception`s, the runs are those of which the other theorems speak: a handler's
exception closes no connection and does not stop the server (C49). -/
theorem C121_exceptions (env : Ext σ H) {leaves : H → σ → ExtensionRestRequest → Option Base} (hn : ∀ h x q, leaves h x q = none)
    (S : Server σ) (es : List (Event σ)) : S.runAny env leaves es = S.run env es := by
  induction es generalizing S with
  | nil => rfl
  | cons e es ih =>
    simp only [Server.runAny, Server.run, stepAny_none hn]
    congr 1
    funext T
    exact ih T

example := C121_exceptions sampleExt (leaves := fun _ _ _ => none) (fun _ _ _ => rfl) (Server.start sampleHost) [.accept 0]

/-- **C121** (contained).  A handler that raises `CancelledError`, or any other exception that is no `Exception` except `SystemExit` and
`KeyboardInterrupt`, leaves its request unanswered and its connection closed; what was sent stays sent, the other connections, the accept loop and
the host (but for the extension's own state and the ids) are as before. -/
theorem C121_contained (env : Ext σ H) {leaves : H → σ → ExtensionRestRequest → Option Base} {S : Server σ} {c : Nat} {wire : Bytes}
    (ch : Choice) {raw : Bytes} {b : Base} (hc : S.conns c = some ⟨.waiting, wire⟩) (hr : raw ≠ []) (hl : raw.length ≤ 10240)
    (hd : Departs env leaves S.host.ext raw b) (hb : b ≠ .systemExit ∧ b ≠ .keyboardInterrupt) :
    ∃ S' x n, S.stepAny env leaves (.recv c ch raw) = some S' ∧ S'.conns c = some ⟨.closed, wire⟩ ∧
      (∀ d, d ≠ c → S'.conns d = S.conns d) ∧ S'.serving = S.serving ∧ S'.terminating = S.terminating ∧ S.host.ids ≤ n ∧
      S'.host = { S.host with ids := n, ext := x } := by
  obtain ⟨x, hx⟩ := hostLeft_departs hd ch
  have hf : b.endsLoop = false := by cases b <;> simp_all [Base.endsLoop]
  refine ⟨_, x, S.host.ids + 2, stepAny_departs hc rfl hr hl hd, ?_, ?_, ?_, ?_, Nat.le_add_right .., ?_⟩
  all_goals unfold Server.leave; rw [hf]; dsimp only
  · exact setConn_same _ _ _
  · exact fun d hd => setConn_other _ _ hd
  · rfl
  · rfl
  · exact hx

theorem leave_alive {env : Ext σ H} {S : Server σ} {c d : Nat} {k : Conn} {ch : Choice} {raw : Bytes} {b : Base} (hi : Alive S c) (hd : d ≠ c)
    (hb : b ≠ .systemExit ∧ b ≠ .keyboardInterrupt) : Alive (S.leave env d k ch raw b) c := by
  have hf : b.endsLoop = false := by cases b <;> simp_all [Base.endsLoop]
  obtain ⟨h1, h2, h3, h4⟩ := hi
  unfold Server.leave
  rw [hf]
  refine ⟨h1, h2, h3, ?_⟩
  intro k' hk'
  have : (S.setConn d { k with phase := .closed }).conns c = some k' := hk'
  rw [setConn_other _ _ (Ne.symm hd)] at this
  exact h4 k' this

theorem runAny_alive {env : Ext σ H} {leaves : H → σ → ExtensionRestRequest → Option Base} {S S' : Server σ} {es : List (Event σ)} {c : Nat}
    (h : S.runAny env leaves es = some S') (hi : Alive S c) (hsp : Spared env leaves c S es) (h1 : .eof c ∉ es) (h2 : .stop ∉ es)
    (h3 : .acceptFail ∉ es) : Alive S' c := by
  induction es generalizing S with
  | nil => simp only [Server.runAny, Option.some.injEq] at h; subst h; exact hi
  | cons e es ih =>
    obtain ⟨T, t1, t2⟩ := runAny_cons h
    obtain ⟨p1, p2⟩ := hsp
    simp only [List.mem_cons, not_or] at h1 h2 h3
    refine ih t2 ?_ (p2 T t1) h1.2 h2.2 h3.2
    rcases stepAny_cases t1 with hs | ⟨d, ch, raw, k, b, rfl, _, _, hd, rfl⟩
    · exact step_alive hs hi (fun hh => h1.1 hh.symm) (fun hh => h2.1 hh.symm) (fun hh => h3.1 hh.symm)
    · obtain ⟨q1, q2⟩ := p1 d ch raw b rfl hd
      exact leave_alive hi q1 q2

theorem runAny_exists {env : Ext σ H} {leaves : H → σ → ExtensionRestRequest → Option Base} {S S' : Server σ} {es : List (Event σ)} {c : Nat}
    (h : S.runAny env leaves es = some S') (hi : S.conns c ≠ none) : S'.conns c ≠ none := by
  induction es generalizing S with
  | nil => simp only [Server.runAny, Option.some.injEq] at h; subst h; exact hi
  | cons e es ih =>
    obtain ⟨T, t1, t2⟩ := runAny_cons h
    refine ih t2 ?_
    rcases stepAny_cases t1 with hs | ⟨d, ch, raw, k, b, rfl, _, _, hd, rfl⟩
    · exact step_exists hs hi
    · unfold Server.leave
      have hset : (S.setConn d { k with phase := .closed }).conns c ≠ none := by
        by_cases hdc : c = d
        · subst hdc; rw [setConn_same]; simp
        · rw [setConn_other _ _ hdc]; exact hi
      dsimp only
      split
      · simp only [Server.shutdown, ne_eq, Option.map_eq_none_iff]; exact hset
      · exact hset

/-- **C121** (other peers).  Whatever exceptions the handlers called for other peers raise, except `SystemExit` and `KeyboardInterrupt`, and in whatever
order things happen: an open connection stays open and the accept loop runs. -/
theorem C121_others_partial (env : Ext σ H) {leaves : H → σ → ExtensionRestRequest → Option Base} {s : Host σ} {S S' : Server σ}
    {es fs : List (Event σ)} {c : Nat} (h : (Server.start s).runAny env leaves es = some S) (hc : Open S c)
    (h' : S.runAny env leaves fs = some S') (hsp : Spared env leaves c (Server.start s) es) (hsp' : Spared env leaves c S fs)
    (h1 : .stop ∉ es ++ fs) (h2 : .eof c ∉ es ++ fs) (h3 : .acceptFail ∉ es ++ fs) : Open S' c ∧ S'.serving = true := by
  simp only [List.mem_append, not_or] at h1 h2 h3
  have i1 : Alive S c := runAny_alive h ⟨rfl, rfl, rfl, fun k hk => by cases hk⟩ hsp h2.1 h1.1 h3.1
  have i2 : Alive S' c := runAny_alive h' i1 hsp' h2.2 h1.2 h3.2
  obtain ⟨k, hk, _⟩ := hc
  have := runAny_exists h' (c := c) (by rw [hk]; simp)
  obtain ⟨k', hk'⟩ := Option.ne_none_iff_exists'.1 this
  exact ⟨⟨k', hk', i2.2.2.2 k' hk'⟩, i2.2.2.1⟩

/-- The server is over: nothing can happen on a connection. -/
theorem stepAny_over {env : Ext σ H} {leaves : H → σ → ExtensionRestRequest → Option Base} {S S' : Server σ} {e : Event σ}
    (h : S.stepAny env leaves e = some S') (hs : S.serving = false) (hc : ∀ d k, S.conns d = some k → k.phase = .closed) :
    S'.serving = false ∧ S'.conns = S.conns ∧ accepts [e] = 0 := by
  rcases stepAny_cases h with h | ⟨d, ch, raw, k, b, rfl, h1, h2, _⟩
  · refine ⟨step_not_serving h hs, ?_, ?_⟩
    · funext d
      have ha : e.about ≠ some d := by
        intro he
        rcases hd : S.conns d with _ | ⟨p, w⟩
        · cases e <;> simp only [Event.about, Option.some.injEq, reduceCtorEq] at he <;> subst he <;> simp [Server.step, hd, hs] at h
        · have := hc d _ hd
          simp only at this
          subst this
          exact (closed_step hd h).2 he
      rcases step_elsewhere h ha with e1 | ⟨_, e1⟩
      · exact e1
      · rw [e1]
        rcases hd : S.conns d with _ | ⟨p, w⟩
        · rfl
        · have := hc d _ hd
          simp only at this
          subst this
          rfl
    · cases e <;> first | rfl | (simp [Server.step, hs] at h)
  · have := hc d k h1
    rw [this] at h2
    cases h2

theorem runAny_over {env : Ext σ H} {leaves : H → σ → ExtensionRestRequest → Option Base} {S S' : Server σ} {es : List (Event σ)}
    (h : S.runAny env leaves es = some S') (hs : S.serving = false) (hc : ∀ d k, S.conns d = some k → k.phase = .closed) :
    S'.serving = false ∧ S'.conns = S.conns ∧ accepts es = 0 := by
  induction es generalizing S with
  | nil => simp only [Server.runAny, Option.some.injEq] at h; subst h; exact ⟨hs, rfl, rfl⟩
  | cons e es ih =>
    obtain ⟨T, t1, t2⟩ := runAny_cons h
    obtain ⟨a1, a2, a3⟩ := stepAny_over t1 hs hc
    obtain ⟨b1, b2, b3⟩ := ih t2 a1 (by rw [a2]; exact hc)
    exact ⟨b1, by rw [b2, a2], by rw [accepts_cons, a3, b3]⟩

/-- **C121** is false of `SystemExit` and `KeyboardInterrupt`.  In every state of a server: a REST request on which the handler calls `sys.exit()` ends the
accept loop and closes every connection.  Whatever happens then, no peer is sent anything more, also not the rest of an answer, and
no peer is accepted. -/
theorem C121_exit_violated (env : Ext σ H) {leaves : H → σ → ExtensionRestRequest → Option Base} {S : Server σ} {c : Nat} {wire : Bytes}
    (ch : Choice) {raw : Bytes} {b : Base} (hc : S.conns c = some ⟨.waiting, wire⟩) (hr : raw ≠ []) (hl : raw.length ≤ 10240)
    (hd : Departs env leaves S.host.ext raw b) (hb : b = .systemExit ∨ b = .keyboardInterrupt) :
    ∃ S', S.stepAny env leaves (.recv c ch raw) = some S' ∧ S'.serving = false ∧
      ∀ fs S'', S'.runAny env leaves fs = some S'' → S''.serving = false ∧ accepts fs = 0 ∧
        ∀ d k, S.conns d = some k → S''.conns d = some ⟨.closed, k.wire⟩ := by
  have hf : b.endsLoop = true := by rcases hb with rfl | rfl <;> rfl
  have hS : S.leave env c ⟨.waiting, wire⟩ ch raw b =
      Server.shutdown { S.setConn c ⟨.closed, wire⟩ with host := hostLeft env ch S.host raw } := by
    unfold Server.leave; rw [hf]; rfl
  have hk : ∀ d, (S.leave env c ⟨.waiting, wire⟩ ch raw b).conns d = (S.conns d).map fun k => { k with phase := .closed } := by
    intro d
    rw [hS]
    simp only [Server.shutdown]
    by_cases hdc : d = c
    · subst hdc; rw [setConn_same, hc]; rfl
    · rw [setConn_other _ _ hdc]
  have hover : ∀ d k, (S.leave env c ⟨.waiting, wire⟩ ch raw b).conns d = some k → k.phase = .closed := by
    intro d k hk'
    rw [hk d] at hk'
    obtain ⟨k0, _, rfl⟩ := Option.map_eq_some_iff.1 hk'
    rfl
  have hsv : (S.leave env c ⟨.waiting, wire⟩ ch raw b).serving = false := by rw [hS]; rfl
  refine ⟨_, stepAny_departs hc rfl hr hl hd, hsv, fun fs S'' hrun => ?_⟩
  obtain ⟨a1, a2, a3⟩ := runAny_over hrun hsv hover
  refine ⟨a1, a3, fun d k hdk => ?_⟩
  rw [a2, hk d, hdk]
  rfl


/-- Handlers that call `sys.exit()` on every request; that raise `CancelledError`. -/
def sampleExits : Bool → Nat → ExtensionRestRequest → Option Base := fun _ _ _ => some .systemExit
def sampleCancels : Bool → Nat → ExtensionRestRequest → Option Base := fun _ _ _ => some .cancelledError

theorem sampleDeparts {leaves : Bool → Nat → ExtensionRestRequest → Option Base} {b : Base} (x : Nat)
    (h : leaves true x { sampleRest with consumed_params := [], content_consumed := false } = some b) :
    Departs sampleExt leaves x sampleRestFrame b :=
  ⟨_, _, { sampleRest with consumed_params := [], content_consumed := false }, [], .GET, true, sampleRest_isRequest,
    by decide +kernel, by decide +kernel, rfl, by decide +kernel, h⟩

example := C121_contained sampleExt (S := sampleIdle) (c := 0) (wire := []) sampleChoice (raw := sampleRestFrame) (by decide +kernel)
  (by decide +kernel) (by decide +kernel) (sampleDeparts (leaves := sampleCancels) _ rfl) (by decide)
example := C121_exit_violated sampleExt (S := sampleIdle) (c := 0) (wire := []) sampleChoice (raw := sampleRestFrame) (by decide +kernel)
  (by decide +kernel) (by decide +kernel) (sampleDeparts (leaves := sampleExits) _ rfl) (.inl rfl)

/-- Two peers; the handler called for the first raises `CancelledError`. -/
def sampleTwo : Server Nat := ((Server.start sampleHost).runAny sampleExt sampleCancels [.accept 0, .accept 1]).get (by decide +kernel)
theorem sampleTwo_run : (Server.start sampleHost).runAny sampleExt sampleCancels [.accept 0, .accept 1] = some sampleTwo :=
  (Option.some_get _).symm
def sampleTwoLeft : Server Nat := (sampleTwo.runAny sampleExt sampleCancels [.recv 0 sampleChoice sampleRestFrame]).get (by decide +kernel)
theorem sampleTwo_left : sampleTwo.runAny sampleExt sampleCancels [.recv 0 sampleChoice sampleRestFrame] = some sampleTwoLeft :=
  (Option.some_get _).symm

example : Open sampleTwoLeft 1 ∧ sampleTwoLeft.serving = true :=
  C121_others_partial sampleExt sampleTwo_run ⟨_, show sampleTwo.conns 1 = some ⟨.waiting, []⟩ by decide +kernel, by decide⟩ sampleTwo_left
    ⟨fun _ _ _ _ h => by (cases h), fun _ _ => ⟨fun _ _ _ _ h => by (cases h), fun _ _ => trivial⟩⟩
    ⟨fun d ch raw b h hd => by
      injection h with h1 h2 h3
      subst h1
      refine ⟨by decide, ?_⟩
      obtain ⟨_, _, _, _, _, _, _, _, _, _, _, hb⟩ := hd
      simp only [sampleCancels, Option.some.injEq] at hb
      subst hb
      decide, fun _ _ => trivial⟩
    (by simp) (by simp) (by simp)

end Verif
