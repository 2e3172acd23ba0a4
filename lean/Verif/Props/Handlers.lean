import Verif.Props.Requests
import Verif.Spec.Handlers
import Verif.Lemmas.HostInv
/-!
# C95: which handler gets a message
-/

namespace Verif
open Py StreamInput StreamOutput

variable {σ H : Type}

theorem get?_registerAll {S : Type} (hs : List (RequestHandler S)) (d : RequestHandlers S) (a : String) (h : RequestHandler S) :
    RegisteredLast hs a h → (hs.foldl RequestHandlers.register d).get? a = some h := by
  rintro ⟨before, after, rfl, ha, hafter⟩
  rw [List.foldl_append, List.foldl_cons]
  generalize before.foldl RequestHandlers.register d = d'
  have : ∀ (l : List (RequestHandler S)) (e : RequestHandlers S), (∀ h' ∈ l, h'.action ≠ a) →
      (l.foldl RequestHandlers.register e).get? a = e.get? a := by
    intro l
    induction l with
    | nil => intros; rfl
    | cons x l ih =>
      intro e hl
      rw [List.foldl_cons, ih _ (fun h' hh => hl h' (List.mem_cons_of_mem _ hh))]
      unfold RequestHandlers.register
      rw [Dict.get?_set, if_neg]
      exact hl x (by simp)
  rw [this _ _ hafter]
  unfold RequestHandlers.register
  rw [Dict.get?_set, if_pos ha]

theorem get?_registerNone {S : Type} (hs : List (RequestHandler S)) (d : RequestHandlers S) (a : String)
    (h : ∀ h' ∈ hs, h'.action ≠ a) : (hs.foldl RequestHandlers.register d).get? a = d.get? a := by
  induction hs generalizing d with
  | nil => rfl
  | cons x l ih =>
    rw [List.foldl_cons, ih _ (fun h' hh => h h' (List.mem_cons_of_mem _ hh))]
    unfold RequestHandlers.register
    rw [Dict.get?_set, if_neg]
    exact h x (by simp)

theorem written_not_none {w : W} : written w ≠ .ok none := by
  unfold written
  split <;> simp

theorem answerWith_of {d : RequestHandlers (Host σ)} {ch : Choice} {s s' : Host σ} {req : OutboundRequest} {input : Bytes}
    {o : Except Err (Option Bytes)} (h : d.handle s req input = (s', o)) (ho : o ≠ .ok none) :
    answerWith d ch s req input = (s', o) := by
  unfold answerWith
  rw [h]
  cases o with
  | error e => rfl
  | ok o =>
    cases o with
    | none => exact (ho rfl).elim
    | some b => rfl

theorem handle_of {S : Type} {d : RequestHandlers S} {s : S} {req : OutboundRequest} {input : Bytes} {h : RequestHandler S}
    (hg : d.get? req.action = some h) : d.handle s req input = h.handle s req input := by
  unfold RequestHandlers.handle
  rw [hg]

/-- No built-in handler returns `None`. -/
theorem handlers_some (env : Ext σ H) (ch : Choice) (s : Host σ) (req : OutboundRequest) (input : Bytes) :
    (handleInit env ch s req input).2 ≠ .ok none ∧ (handleRest env ch s req input).2 ≠ .ok none ∧
    (handleTcpHandshake ch s req input).2 ≠ .ok none ∧ (handleTransportHandshake ch s req input).2 ≠ .ok none := by
  refine ⟨?_, ?_, ?_, ?_⟩
  · unfold handleInit
    split
    · simp
    · split
      · simp
      · dsimp only
        split
        · simp
        · split
          · simp
          · exact written_not_none
  · unfold handleRest
    split
    · simp
    · split
      · simp
      · split
        · simp
        · exact (sendReply_state ..).2
  · unfold handleTcpHandshake
    split
    · simp
    · exact (sendReply_state ..).2
  · unfold handleTransportHandshake
    split
    · simp
    · exact (sendReply_state ..).2

theorem serve_get? (env : Ext σ H) (ch : Choice) (a : String) :
    ((serveHandlers env ch).get? a).map (·.handle) =
      if a = "internal:discovery/extensions" then some (fun s request input => handleInit env ch s request input)
      else if a = "internal:extensions/restexecuteonextensiontaction" then
        some (fun s request input => handleRest env ch s request input)
      else if a = "internal:tcp/handshake" then some (fun s request input => handleTcpHandshake ch s request input)
      else if a = "internal:transport/handshake" then
        some (fun s request input => handleTransportHandshake ch s request input)
      else none := by
  unfold serveHandlers RequestHandlers.register
  simp only [Dict.get?_set]
  by_cases h1 : a = "internal:discovery/extensions"
  · subst h1; simp
  by_cases h2 : a = "internal:extensions/restexecuteonextensiontaction"
  · subst h2; simp
  by_cases h3 : a = "internal:tcp/handshake"
  · subst h3; simp
  by_cases h4 : a = "internal:transport/handshake"
  · subst h4; simp
  simp [h1, h2, h3, h4, Ne.symm h1, Ne.symm h2, Ne.symm h3, Ne.symm h4, Dict.get?]

theorem answerWith_serve (env : Ext σ H) (ch : Choice) (s : Host σ) (req : OutboundRequest) (input : Bytes)
    (d : RequestHandlers (Host σ)) (hd : d.get? req.action = (serveHandlers env ch).get? req.action) :
    answerWith d ch s req input = handleRequest env ch s req input := by
  have hg := serve_get? env ch req.action
  rw [← hd] at hg
  obtain ⟨g1, g2, g3, g4⟩ := handlers_some env ch s req input
  unfold handleRequest
  cases hx : d.get? req.action with
  | none =>
    rw [hx] at hg
    split_ifs at hg ⊢ <;> first | (simp at hg; done) | skip
    unfold answerWith RequestHandlers.handle
    rw [hx]
  | some h =>
    rw [hx] at hg
    have e := handle_of (s := s) (input := input) hx
    split_ifs at hg ⊢ <;> simp only [Option.map_some, Option.some.injEq, reduceCtorEq] at hg <;> rw [hg] at e <;>
      exact answerWith_of e (by assumption)

/-- Apart from requests, and from what is registered for their action, the tables make no difference. -/
theorem onInputWith_eq (env : Ext σ H) (ch : Choice) (s : Host σ) (raw : Bytes) (d : RequestHandlers (Host σ))
    (hd : ∀ req body, IsRequest raw req body → d.get? req.action = (serveHandlers env ch).get? req.action) :
    onInputWith d env ch s raw = onInput env ch s raw := by
  unfold onInputWith onInput
  simp only
  cases hh : TcpHeader.readFrom raw with
  | error e => rfl
  | ok p =>
    obtain ⟨h, input⟩ := p
    simp only
    split
    · next hq =>
      obtain ⟨bl, hb, _⟩ := blankRequest_new (s.ids + 1)
      have e0 : (TcpHeader.new (.int Version.CURRENT) 0 none s.ids).2 = s.ids + 1 := rfl
      rw [e0, hb]
      simp only
      cases hr : bl.readFrom (some h) input with
      | error e => rfl
      | ok p =>
        obtain ⟨req, body⟩ := p
        have hp := (parsesAsRequest_iff (s.ids + 1)).2 ⟨bl, h, input, hb, hh, hr⟩
        exact answerWith_serve env ch _ req body d
          (hd req body ⟨hp, by rw [(request_readFrom_ok hr).1]; exact hq⟩)
    · rfl

theorem onInputWith_request {env : Ext σ H} {ch : Choice} {s : Host σ} {raw : Bytes} {req : OutboundRequest}
    {body : Bytes} (h : IsRequest raw req body) (d : RequestHandlers (Host σ)) :
    onInputWith d env ch s raw = answerWith d ch { s with ids := s.ids + 2 } req body := by
  obtain ⟨bl, hd, rest, h1, h2, h3⟩ := (parsesAsRequest_iff (s.ids + 1)).1 h.1
  obtain ⟨e, _⟩ := request_readFrom_ok h3
  have hq := h.2
  rw [e] at hq
  have e0 : (TcpHeader.new (.int Version.CURRENT) 0 none s.ids).2 = s.ids + 1 := rfl
  unfold onInputWith
  simp only [h2, hq, if_true, e0, h1, h3]

/-! ## C95 -/

/-- C95: after `serve`, and with any handlers `hs` registered later, an input is handled as by the built-in handlers, unless
it is a request whose action one of `hs` was registered for.  (With no `hs`: the host behaves as the model used elsewhere says.) -/
theorem C95_builtin (env : Ext σ H) (ch : Choice) (s : Host σ) (raw : Bytes) (hs : List (RequestHandler (Host σ)))
    (hno : ∀ req body, IsRequest raw req body → ∀ h ∈ hs, h.action ≠ req.action) :
    onInputWith (hs.foldl RequestHandlers.register (serveHandlers env ch)) env ch s raw = onInput env ch s raw :=
  onInputWith_eq env ch s raw _ fun req body hr => get?_registerNone hs _ _ (hno req body hr)

/-- C95: a request goes to the handler that was registered last for its action, and to no other: if it returns bytes or raises,
this is the outcome, and the state it leaves is the host's state. -/
theorem C95_registered (env : Ext σ H) (ch : Choice) (s : Host σ) {raw : Bytes} {req : OutboundRequest} {body : Bytes}
    (hr : IsRequest raw req body) (hs : List (RequestHandler (Host σ))) {h : RequestHandler (Host σ)}
    (hlast : RegisteredLast hs req.action h) {s' : Host σ} {o : Except Err (Option Bytes)}
    (hrun : h.handle { s with ids := s.ids + 2 } req body = (s', o)) (ho : o ≠ .ok none) :
    onInputWith (hs.foldl RequestHandlers.register (serveHandlers env ch)) env ch s raw = (s', o) := by
  rw [onInputWith_request hr]
  exact answerWith_of ((handle_of (get?_registerAll hs _ _ h hlast)).trans hrun) ho

/-- C95: if that handler returns nothing, the peer is told that there is no handler. -/
theorem C95_silent (env : Ext σ H) (ch : Choice) (s : Host σ) {raw : Bytes} {req : OutboundRequest} {body : Bytes}
    (hr : IsRequest raw req body) (hs : List (RequestHandler (Host σ))) {h : RequestHandler (Host σ)}
    (hlast : RegisteredLast hs req.action h) {s' : Host σ}
    (hrun : h.handle { s with ids := s.ids + 2 } req body = (s', .ok none)) (hid : req.tcp_header.request_id ≠ 0)
    (hfits : req.ctx.size + (utf8 req.action).length < 2 ^ 31 - 1000) :
    ∃ out rbody d, onInputWith (hs.foldl RequestHandlers.register (serveHandlers env ch)) env ch s raw = (s', .ok (some out)) ∧
      Answers out req rbody ∧ RestExecuteOnExtensionResponse.readFrom rbody = .ok (d, []) ∧ d.status = some .NOT_FOUND := by
  obtain ⟨i1, i2, hc⟩ := parsesAsRequest_ok hr.1
  obtain ⟨hrt, hlen⟩ := notFound_facts req.action (by omega)
  obtain ⟨out, o1, o2⟩ := sendReply_fits ch s' hc i1 i2 hid hrt.1 (by omega)
  refine ⟨out, _, _, ?_, o2, by simpa using hrt.2 [], rfl⟩
  rw [onInputWith_request hr]
  unfold answerWith RequestHandlers.handle
  rw [get?_registerAll hs _ _ h hlast]
  simp only [hrun]
  exact o1

theorem afterOps_append {T : Type} (d : ResponseHandlers T) (a b : List (ResponseOp T)) :
    afterOps d (a ++ b) = afterOps (afterOps d a) b := by
  induction a generalizing d with
  | nil => rfl
  | cons o a ih => cases o <;> exact ih _

theorem afterOps_wf {T : Type} {d : ResponseHandlers T} (h : Dict.WF d) (ops : List (ResponseOp T)) :
    Dict.WF (afterOps d ops) := by
  induction ops generalizing d with
  | nil => exact h
  | cons o ops ih =>
    cases o with
    | register i x => exact ih (Dict.WF.set h _ _)
    | respond i => exact ih (Dict.WF.erase h i)

theorem afterOps_other {T : Type} {d : ResponseHandlers T} (h : Dict.WF d) (ops : List (ResponseOp T)) (id : Int)
    (ho : ∀ o ∈ ops, o.id ≠ id) : (afterOps d ops).get? id = d.get? id := by
  induction ops generalizing d with
  | nil => rfl
  | cons o ops ih =>
    have h1 := ho o (by simp)
    have h2 : ∀ o ∈ ops, o.id ≠ id := fun o hh => ho o (List.mem_cons_of_mem _ hh)
    cases o with
    | register i x =>
      refine (ih (Dict.WF.set h _ _) h2).trans ?_
      exact (Dict.get?_set _ _ _ _).trans (if_neg h1)
    | respond i =>
      refine (ih (Dict.WF.erase h i) h2).trans ?_
      exact (Dict.get?_erase h _ _).trans (if_neg h1)

/-- C95: a response runs exactly the handler that was registered last for its id, and only if no response with that id has come
since: a handler runs at most once, and one that was replaced or never registered does not run. -/
theorem C95_responses {T : Type} (ops : List (ResponseOp T)) (id : Int) (h : T) :
    runsAfter ops id = some h ↔ ∃ a b, ops = a ++ .register id h :: b ∧ ∀ o ∈ b, o.id ≠ id := by
  have hw : Dict.WF ([] : ResponseHandlers T) := by simp [Dict.WF]
  constructor
  · intro hr
    unfold runsAfter ResponseHandlers.pop at hr
    simp only at hr
    induction ops using List.reverseRecOn with
    | nil => simp [afterOps, Dict.get?] at hr
    | append_singleton ops o ih =>
      rw [afterOps_append] at hr
      by_cases ho : o.id = id
      · cases o with
        | register i x =>
          simp only [ResponseOp.id] at ho
          subst ho
          have hr' : (Dict.set (afterOps [] ops) i x).get? i = some h := hr
          rw [Dict.get?_set, if_pos rfl] at hr'
          cases hr'
          exact ⟨ops, [], rfl, by simp⟩
        | respond i =>
          simp only [ResponseOp.id] at ho
          subst ho
          have hr' : (Dict.erase (afterOps [] ops) i).get? i = some h := hr
          rw [Dict.get?_erase (afterOps_wf hw ops), if_pos rfl] at hr'
          cases hr'
      · rw [afterOps_other (afterOps_wf hw ops) [o] id (by simpa using ho)] at hr
        obtain ⟨a, b, e, hb⟩ := ih hr
        refine ⟨a, b ++ [o], by rw [e]; simp, ?_⟩
        intro o' ho'
        rcases List.mem_append.1 ho' with g | g
        · exact hb o' g
        · rw [List.mem_singleton.1 g]; exact ho
  · rintro ⟨a, b, rfl, hb⟩
    unfold runsAfter ResponseHandlers.pop
    simp only
    rw [afterOps_append]
    show (afterOps (Dict.set (afterOps [] a) id h) b).get? id = some h
    rw [afterOps_other (Dict.WF.set (afterOps_wf hw a) _ _) b id hb, Dict.get?_set, if_pos rfl]

/-- C95: the host's own responses go through that table: the handler is looked up and removed before it runs, whatever it does. -/
theorem C95_host (env : Ext σ H) (ch : Choice) (s : Host σ) {raw : Bytes} {resp : OutboundResponse} {body : Bytes}
    (hr : IsResponse raw resp body) (he : resp.tcp_header.isError = false) :
    (onInput env ch s raw).1.pending = (ResponseHandlers.pop s.pending resp.tcp_header.request_id).2 ∧
    ((ResponseHandlers.pop s.pending resp.tcp_header.request_id).1 = none → (onInput env ch s raw).2 = .ok none) := by
  rw [onInput_response hr, he]
  simp only [Bool.false_eq_true, if_false]
  unfold handleResponse ResponseHandlers.pop
  simp only
  cases hg : s.pending.get? resp.tcp_header.request_id with
  | none => exact ⟨(Dict.erase_of_not_mem (Dict.get?_eq_none.1 hg)).symm, fun _ => rfl⟩
  | some p =>
    refine ⟨?_, by simp⟩
    simp only
    cases p with
    | registerRest n =>
      simp only
      unfold handleRegistered
      split
      · rfl
      · split <;> rfl
    | settings =>
      simp only
      unfold handleSettings
      split <;> rfl

example := C95_host sampleExt sampleChoice sampleHost sampleAck_isResponse (by decide +kernel)

/-! ## Cases that meet the hypotheses -/

/-- A handler for a new action, one for an old one, and one that replaces the first. -/
def sampleHandlers : List (RequestHandler (Host Nat)) :=
  [⟨"custom", fun s _ _ => (s, .error .value)⟩, ⟨"internal:tcp/handshake", fun s _ _ => (s, .ok none)⟩,
   ⟨"custom", fun s _ b => ({ s with ext := s.ext + 1 }, .ok (some b))⟩]

def customFrame : Bytes := sampleFrame (W.emit [1, 2]) "custom" 5

theorem customFrame_ok : RequestFrame customFrame sampleCtx ["f"] (W.emit [1, 2]) "custom" 5 false false :=
  ⟨sampleOrder, Version.new 2070099, 0, 0, _, rfl, rfl, by decide +kernel, by decide +kernel, by decide +kernel,
    by decide +kernel, by decide +kernel, by decide +kernel⟩

/-- C95: the last handler for "custom" answers, and counts. -/
example : ∃ req body h s', IsRequest customFrame req body ∧ RegisteredLast sampleHandlers req.action h ∧
    h.handle { sampleHost with ids := 2 } req body = (s', .ok (some [1, 2])) ∧ s'.ext = 1 := by
  obtain ⟨_, _, req, q1, _, _, _, _, _, _, _, _, q10⟩ := frame_parses customFrame_ok []
  rw [List.append_nil] at q1
  refine ⟨req, _, ⟨"custom", fun s _ b => ({ s with ext := s.ext + 1 }, .ok (some b))⟩,
    { sampleHost with ids := 2, ext := 1 }, q1, ?_, rfl, rfl⟩
  rw [q10]
  exact ⟨[⟨"custom", fun s _ _ => (s, .error .value)⟩, ⟨"internal:tcp/handshake", fun s _ _ => (s, .ok none)⟩], [], rfl, rfl,
    by simp⟩

/-- C95: the handshake's replacement returns nothing. -/
example : RegisteredLast sampleHandlers "internal:tcp/handshake" ⟨"internal:tcp/handshake", fun s _ _ => (s, .ok none)⟩ :=
  ⟨[_], [_], rfl, rfl, by decide⟩

/-- C95: registered twice, the second handler runs, once. -/
example : runsAfter [.register 1 "a", .register 2 "b", .register 1 "c", .respond 2] 1 = some "c" ∧
    runsAfter [.register 1 "a", .register 2 "b", .register 1 "c", .respond 2] 2 = none := by decide +kernel

theorem custom_isRequest : IsRequest customFrame (requestIn customFrame) (requestBody customFrame) :=
  isRequest_of (by decide +kernel) (by decide +kernel)
theorem custom_action : (requestIn customFrame).action = "custom" := by decide +kernel
theorem tcp_action : (requestIn sampleTcpFrame).action = "internal:tcp/handshake" := by decide +kernel
theorem custom_last : RegisteredLast sampleHandlers (requestIn customFrame).action
    ⟨"custom", fun s _ b => ({ s with ext := s.ext + 1 }, .ok (some b))⟩ := by
  rw [custom_action]
  exact ⟨[⟨"custom", fun s _ _ => (s, .error .value)⟩, ⟨"internal:tcp/handshake", fun s _ _ => (s, .ok none)⟩], [], rfl, rfl, by decide⟩
theorem tcp_last : RegisteredLast sampleHandlers (requestIn sampleTcpFrame).action
    ⟨"internal:tcp/handshake", fun s _ _ => (s, .ok none)⟩ := by
  rw [tcp_action]
  exact ⟨[_], [_], rfl, rfl, by decide⟩
example := C95_registered sampleExt sampleChoice sampleHost custom_isRequest sampleHandlers custom_last rfl nofun
example := C95_silent sampleExt sampleChoice sampleHost sampleTcp_isRequest sampleHandlers tcp_last rfl (by decide +kernel)
  (by decide +kernel)
example := C95_builtin sampleExt sampleChoice sampleHost sampleRestFrame sampleHandlers (fun req body h => by
  obtain ⟨rfl, _⟩ := IsRequest.unique h sampleRest_isRequest
  rw [show (requestIn sampleRestFrame).action = "internal:extensions/restexecuteonextensiontaction" by decide +kernel]
  simp [sampleHandlers])

end Verif
