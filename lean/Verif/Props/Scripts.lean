import Verif.Model.Scripts
import Verif.Props.Listen
import Verif.Props.RunLogEnds
import Verif.Props.Liveness
import Verif.Props.Samples
/-!
# C130: the scripts that start the samples
-/

namespace Verif
open Py

variable {σ H : Type} (p : Shown) (t : SocketTexts)

/-- C130: a script gets to run exactly if "localhost" is an address at which port 1234 may be, and is not yet, listened at. -/
theorem C130_started (net : Net) (others : List Sock) (pick : Nat) :
    (scriptStart net others pick).2 = none ↔ ∃ ip, net.resolve "localhost" = some ip ∧ net.allowed ip 1234 = true ∧
      ∀ s ∈ others, ¬ s.Clash ⟨ip, 1234⟩ := by
  unfold scriptStart
  rw [C117_starts net { hosts := [scriptHost], others := others } (h := scriptHost) rfl pick]
  constructor
  · rintro ⟨ip, q, h1, h2, _, _, h5, h6⟩
    have hq : q = 1234 := by
      rcases h2 with h2 | ⟨h2 | h2, _⟩
      · have : (1234 : Int) = q := by simpa [scriptHost] using h2
        omega
      · cases h2
      · exact absurd h2 (by decide)
    subst hq
    exact ⟨ip, h1, h5, fun s hs => h6 s (by simp [Machine.sockets, scriptHost, hs])⟩
  · rintro ⟨ip, h1, h5, h6⟩
    refine ⟨ip, 1234, h1, .inl rfl, by omega, by omega, h5, fun s hs => h6 s ?_⟩
    simpa [Machine.sockets, scriptHost] using hs

/-- C130: when it runs, peers that connect to localhost:1234 are served by it; what it said is true. -/
theorem C130_serves {net : Net} {others : List Sock} {pick : Nat} (h : (scriptStart net others pick).2 = none) :
    ∃ ip, net.resolve "localhost" = some ip ∧ (scriptStart net others pick).1.meets ip 1234 (.host 0) ∧
      (scriptStart net others pick).1.others = others := by
  obtain ⟨h', ip, q, h1, h2, h3, _, h5, _, h7, h8, _, h10⟩ :=
    C117_started net { hosts := [scriptHost], others := others } (n := 0) (h := scriptHost) rfl pick h
  have hq : q = 1234 := by
    rcases h7 with h2 | ⟨h2 | h2, _⟩
    · have : (1234 : Int) = q := by simpa [scriptHost] using h2
      omega
    · cases h2
    · exact absurd h2 (by decide)
  subst hq
  exact ⟨ip, h2, h8, h10⟩

/-- C130 (violated): the script says "Listening on localhost:1234." before it listens.  Whenever it cannot listen, that record and
the one about its start are all it ever logs, and nobody reaches it anywhere. -/
theorem C130_listening_violated {net : Net} {others : List Sock} {pick : Nat} {e : BindErr}
    (h : (scriptStart net others pick).2 = some e) (env : Ext σ H) (x : σ) (text : String) (es : List (Event σ × String)) :
    (scriptLog net others pick p t env x text es)[1]? = some ⟨.info, "Listening on localhost:1234."⟩ ∧
    (scriptLog net others pick p t env x text es).length = 2 ∧
    ∀ ip port n, ¬ (scriptStart net others pick).1.meets ip port (.host n) := by
  unfold scriptLog
  rw [h]
  refine ⟨rfl, rfl, ?_⟩
  have := C117_raised net { hosts := [scriptHost], others := others } 0 pick (by unfold scriptStart at h; rw [h]; simp)
  unfold scriptStart
  rw [this]
  rintro ip port n ⟨k, s, h1, h2, _⟩
  match n, h1 with
  | 0, h1 => cases h1; cases h2

theorem atInfo_basicConfig (l : List LogRecord) : basicConfigInfo l = atInfo l := by
  unfold basicConfigInfo atInfo
  congr 1; funext r; cases r.level <;> rfl

theorem chunks_sublist (env : Ext σ H) : ∀ (es : List (Event σ × String)) (S S' : Server σ),
    S.run env (es.map Prod.fst) = some S' →
    ((chunksRead (es.map Prod.fst)).map fun raw => (⟨.info, bytesRepr raw⟩ : LogRecord)).Sublist
      (basicConfigInfo (S.log p t env es)) := by
  intro es
  induction es with
  | nil => intro S S' _; exact List.Sublist.refl _
  | cons x es ih =>
    intro S S' h
    obtain ⟨e, text⟩ := x
    rw [List.map_cons, Server.run] at h
    obtain ⟨S1, h1, h2⟩ := Option.bind_eq_some_iff.1 h
    have := ih S1 S' h2
    rw [Server.log]
    simp only [h1]
    unfold basicConfigInfo at this ⊢
    rw [List.filter_append]
    cases e with
    | recv c ch raw =>
      rw [List.map_cons, chunksRead, List.map_cons]
      refine List.Sublist.append (l₁ := [_]) ?_ this
      simp only [Server.records, chunkLog, List.cons_append]
      rw [List.filter_cons_of_pos rfl]
      exact List.Sublist.cons_cons _ (List.nil_sublist _)
    | _ => exact this.trans (List.sublist_append_right _ _)

/-- C130: the log of a script that runs tells, in order and at INFO, what it starts, where it listens, its socket, and then every
chunk read from any peer; it has as many warnings as chunks that were not answered and sends that failed; nothing below INFO is in it. -/
theorem C130_log {net : Net} {others : List Sock} {pick : Nat} (h : (scriptStart net others pick).2 = none) (env : Ext σ H) (x : σ)
    (text : String) {es : List (Event σ × String)} {S : Server σ}
    (hrun : (Server.start { ext := x }).run env (es.map Prod.fst) = some S) :
    (∃ rest, scriptLog net others pick p t env x text es =
        ⟨.info, "Starting " ++ text ++ " that implements " ++ listRepr (env.interfaces.map (strRepr p.printable)) ++ "."⟩ ::
        ⟨.info, "Listening on localhost:1234."⟩ :: ⟨.info, "< server=" ++ t.server⟩ :: rest ∧
      ((chunksRead (es.map Prod.fst)).map fun raw => (⟨.info, bytesRepr raw⟩ : LogRecord)).Sublist rest) ∧
    (warnings (scriptLog net others pick p t env x text es)).length =
      unanswered env { ext := x } (es.map Prod.fst) + failedSends (es.map Prod.fst) ∧
    ∀ r ∈ scriptLog net others pick p t env x text es, r.level ≠ .debug := by
  have hl : scriptLog net others pick p t env x text es = scriptSays p env text ++ basicConfigInfo (runLog p t env { ext := x } es) := by
    unfold scriptLog; rw [h]; simp only [basicConfigInfo, List.filter_append]; rfl
  refine ⟨⟨basicConfigInfo ((Server.start { ext := x }).log p t env es), ?_, chunks_sublist p t env es _ _ hrun⟩, ?_, ?_⟩
  · rw [hl]; rfl
  · rw [hl, ← C127_warnings p t env hrun]
    unfold warnings
    rw [List.filter_append]
    have : (scriptSays p env text).filter (fun r => decide (r.level = .warning)) = [] := rfl
    rw [this, List.nil_append]
    unfold basicConfigInfo
    rw [List.filter_filter]
    congr 2; funext r; cases r.level <;> rfl
  · unfold scriptLog
    rw [atInfo_basicConfig]
    intro r hr
    simpa using (List.mem_filter.1 hr).2

/-- What is answered is what the connection sends next, after all it sent before. -/
theorem step_sends {env : Ext σ H} {S S' : Server σ} {c : Nat} {ch : Choice} {raw out : Bytes} {s' : Host σ}
    (hstep : S.step env (.recv c ch raw) = some S') (ho : onInput env ch S.host raw = (s', .ok (some out))) :
    toSend S' c = out ∧ sentOn S' c = sentOn S c ∧ S'.host = s' := by
  simp only [Server.step] at hstep
  split at hstep
  · next k hk =>
    split at hstep
    · cases hstep
      simp only [Server.handle, ho, Server.setConn, toSend, sentOn, if_pos, hk]
      exact ⟨trivial, trivial, trivial⟩
    · cases hstep
  · cases hstep

/-- C130: the hello script, at any moment of its life: a greeting asked for on a connection is what is sent next on this
connection (and C106 says that it is delivered). -/
theorem C130_hello {depth : Nat} {env : Ext Unit Unit} (he : Hello.extension depth = .ok env) {S S' : Server Unit} {c : Nat}
    {ch : Choice} {frame trailing : Bytes} (hstep : S.step env (.recv c ch (frame ++ trailing)) = some S')
    {ctx : ThreadContext} {f : List String} {id : Int} {hsk cp : Bool} {r : ExtensionRestRequest}
    (h : RequestFrame frame ctx f r.writeTo "internal:extensions/restexecuteonextensiontaction" id hsk cp)
    (hr : RequestOK r) (hm : r.method = some .GET) (hp : HelloPath r.path)
    (hfits : ctx.size + (utf8 (greeting r.params)).length < 2 ^ 31 - 1000) :
    ∃ body, ReplyIs (toSend S' c) id hsk cp ctx body ∧ sentOn S' c = sentOn S c ∧
      RestExecuteOnExtensionResponse.readFrom body =
        .ok (⟨some .OK, "text/plain; charset=UTF-8", utf8 (greeting r.params), [], ["name"], false⟩, []) := by
  obtain ⟨out, body, o1, o2, o3⟩ := C73_hello he ch S.host h hr hm hp hfits trailing
  obtain ⟨h1, h2, _⟩ := step_sends hstep o1
  exact ⟨body, by rw [h1]; exact o2, h2, o3⟩

/-- C130: the CRUD script, at any moment: what the client answered to the call that was asked for is what is sent next, and the
state of the cluster is the one the call left. -/
theorem C130_crud {client : Crud.Client σ} {depth : Nat} {env : Ext σ Unit} (he : Crud.extension client depth = .ok env)
    {S S' : Server σ} {c : Nat} {ch : Choice} {frame trailing : Bytes}
    (hstep : S.step env (.recv c ch (frame ++ trailing)) = some S')
    {ctx : ThreadContext} {f : List String} {id : Int} {hsk cp : Bool} {r : ExtensionRestRequest} {m : RestMethod} {x : σ}
    {text : String}
    (h : RequestFrame frame ctx f r.writeTo "internal:extensions/restexecuteonextensiontaction" id hsk cp)
    (hr : RequestOK r) (hm : r.method = some m) (hp : r.path = "/crud")
    (hcall : crudCall client S.host.ext r m = some (x, .ok text))
    (hfits : ctx.size + (utf8 text).length < 2 ^ 31 - 1000) :
    ∃ body, ReplyIs (toSend S' c) id hsk cp ctx body ∧ sentOn S' c = sentOn S c ∧ S'.host.ext = x ∧
      RestExecuteOnExtensionResponse.readFrom body =
        .ok (⟨some .OK, "application/json; charset=UTF-8", utf8 text, [], (crudConsumes m).1, (crudConsumes m).2⟩, []) := by
  obtain ⟨out, body, o1, o2, o3⟩ := (C74_crud he ch S.host h hr hm hp hcall (fun t e => by cases e; exact hfits) trailing).2 text rfl
  obtain ⟨h1, h2, h3⟩ := step_sends hstep o1
  exact ⟨body, by rw [h1]; exact o2, h2, by rw [h3], o3⟩

/-- C130: the version script logs the version as people write it, whatever the rounding of the division. -/
theorem C130_version : versionScriptLog p = [⟨.info, "2.10.0.99"⟩] := by
  unfold versionScriptLog
  rw [show (2100099 : Int) = ((2100099 : Nat) : Int) from rfl, C17_string p.fd 2100099 (by decide)]
  rfl

/-! ## Concrete cases -/

/-- A machine on which "localhost" is 127.0.0.1 and every port may be used. -/
def sampleLocal : Net := ⟨fun a => if a = "localhost" then some 2130706433 else none, fun _ _ => true⟩

example : (scriptStart sampleLocal [⟨2130706433, 9200⟩] 0).2 = none := by decide +kernel
example := C130_serves (net := sampleLocal) (others := [⟨2130706433, 9200⟩]) (pick := 0) (by decide +kernel)
/-- Another program has the port. -/
example : (scriptStart sampleLocal [⟨0, 1234⟩] 0).2 = some .inUse := by decide +kernel
example := C130_listening_violated shownAscii ⟨"s", fun _ => "c"⟩ (net := sampleLocal) (others := [⟨0, 1234⟩]) (pick := 0)
  (e := .inUse) (by decide +kernel) sampleExt 0 "<ext>" []
/-- A peer connects and sends something that is no message. -/
example := C130_log shownAscii ⟨"s", fun _ => "c"⟩ (net := sampleLocal) (others := []) (pick := 0) (by decide +kernel) sampleExt 0 "<ext>"
  (es := [(.accept 0, ""), (.recv 0 sampleChoice [1, 2, 3], "")]) rfl
example : ((scriptLog sampleLocal [] 0 shownAscii ⟨"s", fun _ => "c"⟩ sampleExt 0 "<ext>"
    [(.accept 0, ""), (.recv 0 sampleChoice [1, 2, 3], "")]).map (·.text) |>.take 4) =
    ["Starting <ext> that implements ['Extension', 'ActionExtension'].", "Listening on localhost:1234.", "< server=s",
      "b'\\x01\\x02\\x03'"] := by decide +kernel
example := C130_hello (depth := 3) rfl (S := (Server.start { ext := () }).setConn 0 {}) (c := 0) (ch := sampleChoice)
  (frame := sampleRestFrame) (trailing := []) (Option.some_get (by decide +kernel)).symm sampleRestFrame_ok sampleRest_ok rfl (.inr ⟨"Ann", by decide +kernel⟩) (by decide +kernel)
example := C130_crud (client := sampleClient) (depth := 3) rfl (S := (Server.start { ext := [] }).setConn 0 {}) (c := 0)
  (ch := sampleChoice) (frame := sampleFrame samplePost.writeTo "internal:extensions/restexecuteonextensiontaction" 12) (trailing := [])
  (Option.some_get (by decide +kernel)).symm samplePost_frame (by constructor <;> decide +kernel) (m := .POST) rfl rfl (x := [[1, 2, 3]])
  (text := "{\"result\": \"created\"}") rfl (by decide +kernel)

end Verif
