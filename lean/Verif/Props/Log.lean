import Verif.Spec.Log
import Verif.Spec.Sample
import Verif.Props.Display
import Verif.Lemmas.Sample
import Verif.Conformance.Transport
/-!
# The log of one input (C112)
-/

namespace Verif
open Py

variable {σ H : Type} (p : Shown)

/-- What a handler that produced `result` logged: debugging records, then — if and only if it answered — the record of what is sent. -/
def LogOf (l : List LogRecord) (result : Except Err (Option Bytes)) : Prop :=
  match result with
  | .ok (some out) => ∃ text, atInfo l = [⟨.info, "> " ++ text ++ ", size=" ++ toString out.length ++ " byte(s)"⟩]
  | _ => atInfo l = []

theorem atInfo_debug (t : String) (l : List LogRecord) : atInfo (⟨.debug, t⟩ :: l) = atInfo l := rfl

theorem atInfo_info (t : String) (l : List LogRecord) : atInfo (⟨.info, t⟩ :: l) = ⟨.info, t⟩ :: atInfo l := rfl

theorem atInfo_append (l m : List LogRecord) : atInfo (l ++ m) = atInfo l ++ atInfo m := List.filter_append ..

theorem LogOf.debug {t : String} {l : List LogRecord} {r} (h : LogOf l r) : LogOf (⟨.debug, t⟩ :: l) r := by
  unfold LogOf at h ⊢
  rw [atInfo_debug]; exact h

theorem sendLog_of (text : String) (w : W) : LogOf (sendLog text w) (written w) := by
  unfold sendLog written
  cases w.err with
  | some e => rfl
  | none => exact ⟨text, rfl⟩

theorem replyLog_of (ch : Choice) (s : Host σ) (r : OutboundRequest) (m : W) (t : String) :
    LogOf (replyLog p ch s r m t) (sendReply ch s r m).2 := by
  unfold replyLog sendReply
  rcases replyTo r m s.ids with ⟨_ | q, ids⟩
  · rfl
  · exact sendLog_of _ _

theorem requestLog_of (env : Ext σ H) (ch : Choice) (s : Host σ) (r : OutboundRequest) (input : Bytes) :
    LogOf (requestLog p env ch s r input) (handleRequest env ch s r input).2 := by
  unfold requestLog handleRequest
  by_cases h0 : r.action = "internal:discovery/extensions"
  · rw [if_pos h0, if_pos h0]
    unfold initLog handleInit
    generalize InitializeExtensionResponse.writeTo _ = m1
    generalize (ExtensionTransportRequest.new .REQUEST_EXTENSION_ENVIRONMENT_SETTINGS "").writeTo = m2
    generalize (RegisterRestActionsRequest.new env.name env.registry.named_routes []).writeTo = m3
    cases InitializeExtensionRequest.readFrom input with
    | error e => rfl
    | ok m =>
      dsimp only
      refine LogOf.debug ?_
      rcases replyTo r _ s.ids with ⟨_ | q, ids⟩
      · rfl
      dsimp only
      rcases OutboundRequest.new (some r.ctx) r.features
          (some m2)
          minCompat "internal:discovery/enviornmentsettings" none false false ids with ⟨_ | q, ids⟩
      · rfl
      dsimp only
      rcases OutboundRequest.new (some r.ctx) r.features
            (some m3)
            minCompat "internal:discovery/registerrestactions" none false false ids with ⟨_ | q, ids⟩
      · rfl
      exact sendLog_of _ _
  rw [if_neg h0, if_neg h0]
  by_cases h1 : r.action = "internal:extensions/restexecuteonextensiontaction"
  · rw [if_pos h1, if_pos h1]
    unfold restLog handleRest
    cases ExtensionRestRequest.readFrom {} input with
    | error e => rfl
    | ok m =>
      obtain ⟨m, _⟩ := m
      refine LogOf.debug ?_
      dsimp only
      cases m.method with
      | none => rfl
      | some v =>
        dsimp only
        rcases env.registry.handle env.run (v.name ++ " " ++ m.path) s.ext m with ⟨x, _ | q⟩
        · rfl
        exact replyLog_of p ..
  rw [if_neg h1, if_neg h1]
  by_cases h2 : r.action = "internal:tcp/handshake"
  · rw [if_pos h2, if_pos h2]
    unfold tcpHandshakeLog handleTcpHandshake
    cases HandshakerRequest.readFrom input with
    | error e => rfl
    | ok m =>
      dsimp only
      exact LogOf.debug (replyLog_of p ch s r _ _)
  rw [if_neg h2, if_neg h2]
  by_cases h3 : r.action = "internal:transport/handshake"
  · rw [if_pos h3, if_pos h3]
    unfold transportHandshakeLog handleTransportHandshake
    generalize ServiceHandshakeResponse.writeTo _ = m
    generalize ServiceHandshakeResponse.str p _ _ = t
    cases ServiceHandshakeRequest.readFrom input with
    | error e => rfl
    | ok m =>
      dsimp only
      exact LogOf.debug (replyLog_of p ch s r _ _)
  · rw [if_neg h3, if_neg h3]
    unfold notFoundLog handleNotFound
    generalize (notFoundResponse r.action).writeTo = m
    generalize (notFoundResponse r.action).str p = t
    exact replyLog_of p ch s r _ _

theorem responseLog_of (env : Ext σ H) (ch : Choice) (s : Host σ) (r : OutboundResponse) (input : Bytes) :
    LogOf (responseLog p env ch s r input) (handleResponse env ch s r input).2 := by
  unfold responseLog handleResponse
  rcases s.pending.get? r.tcp_header.request_id with _ | _ | _
  · rfl
  · unfold registeredLog handleRegistered
    dsimp only
    cases AcknowledgedResponse.readFrom input with
    | error e => rfl
    | ok m =>
      refine LogOf.debug ?_
      dsimp only
      cases m.1.status with
      | false => rfl
      | true => exact sendLog_of _ _
  · unfold settingsLog handleSettings
    dsimp only
    rcases Settings.readFrom env.depth s.settings input with ⟨d, _ | q⟩
    · rfl
    refine LogOf.debug ?_
    dsimp only
    cases s.init with
    | none => rfl
    | some r => exact sendLog_of _ _

theorem handleRequest_some (env : Ext σ H) (ch : Choice) (s : Host σ) (r : OutboundRequest) (input : Bytes) :
    (handleRequest env ch s r input).2 ≠ .ok none := by
  have hw : ∀ w, written w ≠ .ok none := by
    intro w; unfold written; cases w.err <;> simp
  have hr : ∀ (s : Host σ) m, (sendReply ch s r m).2 ≠ .ok none := by
    intro s m; unfold sendReply
    rcases replyTo r m s.ids with ⟨_ | q, ids⟩
    · simp
    · exact hw _
  unfold handleRequest
  split
  · unfold handleInit
    cases InitializeExtensionRequest.readFrom input with
    | error e => simp
    | ok m =>
      dsimp only
      rcases replyTo r _ s.ids with ⟨_ | q, ids⟩
      · simp
      dsimp only
      rcases OutboundRequest.new (some r.ctx) r.features
          (some (ExtensionTransportRequest.new .REQUEST_EXTENSION_ENVIRONMENT_SETTINGS "").writeTo)
          minCompat "internal:discovery/enviornmentsettings" none false false ids with ⟨_ | q, ids⟩
      · simp
      dsimp only
      rcases OutboundRequest.new (some r.ctx) r.features
            (some (RegisterRestActionsRequest.new env.name env.registry.named_routes []).writeTo)
            minCompat "internal:discovery/registerrestactions" none false false ids with ⟨_ | q, ids⟩
      · simp
      exact hw _
  split
  · unfold handleRest
    cases ExtensionRestRequest.readFrom {} input with
    | error e => simp
    | ok m =>
      obtain ⟨m, _⟩ := m
      dsimp only
      cases m.method with
      | none => simp
      | some v =>
        dsimp only
        rcases env.registry.handle env.run (v.name ++ " " ++ m.path) s.ext m with ⟨x, _ | q⟩
        · simp
        exact hr _ _
  split
  · unfold handleTcpHandshake
    cases HandshakerRequest.readFrom input with
    | error e => simp
    | ok m => exact hr _ _
  split
  · unfold handleTransportHandshake
    cases ServiceHandshakeRequest.readFrom input with
    | error e => simp
    | ok m => exact hr _ _
  · exact hr _ _

/-- What `on_input` shows at INFO, by its outcome. -/
theorem inputLog_of (env : Ext σ H) (ch : Choice) (s : Host σ) (raw : Bytes) :
    match (onInput env ch s raw).2 with
    | .ok (some out) => ∃ read text, atInfo (inputLog p env ch s raw) =
        [⟨.info, "< " ++ read⟩, ⟨.info, "> " ++ text ++ ", size=" ++ toString out.length ++ " byte(s)"⟩]
    | .ok none => ∃ l text, atInfo (inputLog p env ch s raw) = l ++ [⟨.warning, "< " ++ text⟩] ∧ Quiet l
    | .error _ => Quiet (atInfo (inputLog p env ch s raw)) := by
  unfold inputLog onInput
  dsimp only
  cases TcpHeader.readFrom raw with
  | error e => intro r hr; cases hr
  | ok q =>
    obtain ⟨header, input⟩ := q
    dsimp only
    cases header.isRequest with
    | true =>
      rw [if_pos rfl, if_pos rfl]
      generalize (TcpHeader.new (.int Version.CURRENT) 0 none s.ids).2 = n
      rcases OutboundRequest.new none [] none .none "" none false false n with ⟨_ | blank, ids⟩
      · intro r hr; cases hr
      dsimp only
      cases blank.readFrom (some header) input with
      | error e => intro r hr; cases hr
      | ok q =>
        obtain ⟨request, input⟩ := q
        dsimp only
        have h1 := requestLog_of p env ch { s with ids := ids } request input
        have h2 := handleRequest_some env ch { s with ids := ids } request input
        generalize (handleRequest env ch { s with ids := ids } request input).2 = res at h1 h2
        rcases res with e | _ | out
        · unfold LogOf at h1
          dsimp only at h1 ⊢
          rw [atInfo_debug, atInfo_info, h1]
          intro r hr
          rw [List.mem_singleton.1 hr]; simp
        · exact absurd rfl h2
        · obtain ⟨text, h1⟩ := h1
          exact ⟨_, text, by rw [atInfo_debug, atInfo_info, h1]⟩
    | false =>
      rw [if_neg Bool.false_ne_true, if_neg Bool.false_ne_true]
      generalize (TcpHeader.new (.int Version.CURRENT) 0 none s.ids).2 = n
      rcases OutboundResponse.new none [] none .none none false false n with ⟨_ | blank, ids⟩
      · intro r hr; cases hr
      dsimp only
      cases blank.readFrom (some header) input with
      | error e => intro r hr; cases hr
      | ok q =>
        obtain ⟨response, input⟩ := q
        dsimp only
        cases response.tcp_header.isError with
        | true =>
          rw [if_pos rfl, if_pos rfl]
          exact ⟨[], "error " ++ header.str p, by rw [← String.append_assoc]; rfl, by intro r hr; cases hr⟩
        | false =>
          rw [if_neg Bool.false_ne_true, if_neg Bool.false_ne_true]
          have h1 := responseLog_of p env ch { s with ids := ids } response input
          generalize (handleResponse env ch { s with ids := ids } response input).2 = res at h1
          rw [atInfo_debug, atInfo_info, atInfo_append]
          rcases res with e | _ | out
          · unfold LogOf at h1
            dsimp only at h1 ⊢
            rw [h1]
            intro r hr
            rw [List.mem_singleton.1 hr]; simp
          · unfold LogOf at h1
            dsimp only at h1 ⊢
            rw [h1]
            refine ⟨[⟨.info, "< response " ++ response.str p none⟩],
              "response id " ++ toString response.tcp_header.request_id ++ " not registered", ?_, ?_⟩
            · rw [← String.append_assoc, ← String.append_assoc]; rfl
            · intro r hr
              rw [List.mem_singleton.1 hr]; simp
          · obtain ⟨text, h1⟩ := h1
            refine ⟨"response " ++ response.str p none, text, ?_⟩
            rw [h1, ← String.append_assoc]; rfl

/-- C112: a chunk that is answered leaves exactly three records at INFO: what was read, what it was understood to be, and what was
sent, with its size; and the bytes that were sent are in the log at DEBUG. -/
theorem C112_answered (env : Ext σ H) (ch : Choice) (s : Host σ) (raw : Bytes) (failure : String) {out : Bytes}
    (h : (onInput env ch s raw).2 = .ok (some out)) :
    (∃ read text, atInfo (chunkLog p env ch s raw failure none) = [⟨.info, readRecord raw⟩, ⟨.info, "< " ++ read⟩,
        ⟨.info, "> " ++ text ++ ", size=" ++ toString out.length ++ " byte(s)"⟩]) ∧
      (chunkLog p env ch s raw failure none).getLast? =
        some ⟨.debug, "> #" ++ bytesRepr out ++ ", size=" ++ toString out.length ++ " byte(s)"⟩ := by
  have hi := inputLog_of p env ch s raw
  unfold chunkLog
  rw [h] at hi ⊢
  obtain ⟨read, text, hi⟩ := hi
  refine ⟨⟨read, text, ?_⟩, by rw [List.getLast?_append]; rfl⟩
  rw [atInfo_append, atInfo_append, hi]; rfl

/-- C112: whatever becomes of it, the log of a chunk begins with its bytes, at INFO, and with its bytes and their number, at DEBUG. -/
theorem C112_received (env : Ext σ H) (ch : Choice) (s : Host σ) (raw : Bytes) (failure : String) (sent : Option String) :
    (chunkLog p env ch s raw failure sent).take 2 =
      [⟨.info, bytesRepr raw⟩, ⟨.debug, "< #" ++ bytesRepr raw ++ ", size=" ++ toString raw.length ++ " byte(s)"⟩] := rfl

/-- C112: a chunk that is not answered leaves exactly one warning, after everything else that is shown at INFO. -/
theorem C112_unanswered (env : Ext σ H) (ch : Choice) (s : Host σ) (raw : Bytes) (failure : String) (sent : Option String)
    (h : ∀ out, (onInput env ch s raw).2 ≠ .ok (some out)) :
    ∃ l text, atInfo (chunkLog p env ch s raw failure sent) = ⟨.info, readRecord raw⟩ :: l ++ [⟨.warning, text⟩] ∧
      Quiet l := by
  have hi := inputLog_of p env ch s raw
  unfold chunkLog
  rcases hr : (onInput env ch s raw).2 with e | _ | out
  · rw [hr] at hi
    exact ⟨_, _, by rw [atInfo_append, atInfo_append]; rfl, hi⟩
  · rw [hr] at hi
    obtain ⟨l, text, hi, hq⟩ := hi
    refine ⟨l, "< " ++ text, ?_, hq⟩
    rw [atInfo_append, atInfo_append, hi]
    dsimp only
    rw [show atInfo ([] : List LogRecord) = [] from rfl, List.append_nil]; rfl
  · exact absurd hr (h out)

/-- C112: an answer that could not be sent leaves exactly one warning too, after the records of an answer. -/
theorem C112_lost (env : Ext σ H) (ch : Choice) (s : Host σ) (raw : Bytes) (failure why : String) {out : Bytes}
    (h : (onInput env ch s raw).2 = .ok (some out)) :
    atInfo (chunkLog p env ch s raw failure (some why)) =
      atInfo (chunkLog p env ch s raw failure none) ++ [⟨.warning, "! #" ++ why⟩] := by
  unfold chunkLog
  rw [h, atInfo_append, atInfo_append, atInfo_append (_ ++ _)]
  simp only [List.append_assoc]
  rfl

/-- C112: so the warnings in the log of any chunk count what was lost: none if it was answered and the answer sent, one otherwise. -/
theorem C112_warnings (env : Ext σ H) (ch : Choice) (s : Host σ) (raw : Bytes) (failure : String) (sent : Option String) :
    ((∃ out, (onInput env ch s raw).2 = .ok (some out)) ∧ sent = none ∧
        (warnings (chunkLog p env ch s raw failure sent)).length = 0) ∨
      (¬ ((∃ out, (onInput env ch s raw).2 = .ok (some out)) ∧ sent = none) ∧
        (warnings (chunkLog p env ch s raw failure sent)).length = 1) := by
  have hw : ∀ l : List LogRecord, warnings l = warnings (atInfo l) := by
    intro l
    unfold warnings atInfo
    rw [List.filter_filter]
    refine List.filter_congr fun r _ => ?_
    cases r.level <;> rfl
  have hq : ∀ {l : List LogRecord}, Quiet l → warnings l = [] := by
    intro l h
    exact List.filter_eq_nil_iff.2 fun r hr => by simpa using h r hr
  have happ : ∀ l m, warnings (l ++ m) = warnings l ++ warnings m := fun l m => List.filter_append ..
  rw [hw]
  by_cases h : ∃ out, (onInput env ch s raw).2 = .ok (some out)
  · obtain ⟨out, h⟩ := h
    obtain ⟨⟨read, text, hc⟩, _⟩ := C112_answered p env ch s raw failure h
    cases sent with
    | none => exact .inl ⟨⟨out, h⟩, rfl, by rw [hc]; rfl⟩
    | some why =>
      refine .inr ⟨fun x => (nomatch x.2), ?_⟩
      rw [C112_lost p env ch s raw failure why h, hc]; rfl
  · refine .inr ⟨fun x => h x.1, ?_⟩
    obtain ⟨l, text, hc, hl⟩ := C112_unanswered p env ch s raw failure sent (fun out x => h ⟨out, x⟩)
    have h1 : warnings ((⟨.info, readRecord raw⟩ : LogRecord) :: l) = warnings l := rfl
    rw [hc, happ, h1, hq hl]; rfl

/-- C112: the second record of a request frame names it as it was read: its header, thread context, features and action. -/
theorem C112_request (env : Ext σ H) (ch : Choice) (s : Host σ) {raw body : Bytes} {req : OutboundRequest} (failure : String)
    (sent : Option String) (h : IsRequest raw req body) :
    ∃ l, atInfo (chunkLog p env ch s raw failure sent) =
      ⟨.info, readRecord raw⟩ :: ⟨.info, "< " ++ req.str p none⟩ :: l := by
  obtain ⟨bl, hd, rest, h1, h2, h3⟩ := (parsesAsRequest_iff (s.ids + 1)).1 h.1
  have e := (request_readFrom_ok h3).1
  have hq : hd.isRequest = true := by rw [← e]; exact h.2
  unfold chunkLog inputLog
  have hn : (TcpHeader.new (.int Version.CURRENT) 0 none s.ids).2 = s.ids + 1 := rfl
  simp only [hn, h1, h2, h3, hq, if_true]
  exact ⟨_, rfl⟩

/-- C113: the warning that no request was registered for the id of a response is logged exactly when nothing waits for it, or what
waits is the registration of the routes and it was refused. -/
theorem C113_exact_partial (env : Ext σ H) (ch : Choice) (s : Host σ) {raw body : Bytes} {resp : OutboundResponse} (failure : String)
    (sent : Option String) (h : IsResponse raw resp body) (he : resp.tcp_header.isError = false) :
    ⟨.warning, "< response id " ++ toString resp.tcp_header.request_id ++ " not registered"⟩ ∈
        chunkLog p env ch s raw failure sent ↔
      s.pending.get? resp.tcp_header.request_id = none ∨
        ∃ next ack rest, s.pending.get? resp.tcp_header.request_id = some (.registerRest next) ∧
          AcknowledgedResponse.readFrom body = .ok (ack, rest) ∧ ack.status = false := by
  obtain ⟨bl, hd, rest, h1, h2, h3⟩ := (parsesAsResponse_iff (s.ids + 1)).1 h.1
  have e := (response_readFrom_ok h3).1
  have hq : hd.isRequest = false := by
    have := h.2
    rw [e] at this
    unfold TcpHeader.isRequest; rw [this]; rfl
  have hn : (TcpHeader.new (.int Version.CURRENT) 0 none s.ids).2 = s.ids + 1 := rfl
  have hres : (onInput env ch s raw).2 = (handleResponse env ch { s with ids := s.ids + 1 + 1 } resp body).2 := by
    unfold onInput
    simp only [hn, h1, h2, h3, hq, he, Bool.false_eq_true, if_false]
  have hnone : (handleResponse env ch { s with ids := s.ids + 1 + 1 } resp body).2 = .ok none ↔
      s.pending.get? resp.tcp_header.request_id = none ∨
        ∃ next ack rest, s.pending.get? resp.tcp_header.request_id = some (.registerRest next) ∧
          AcknowledgedResponse.readFrom body = .ok (ack, rest) ∧ ack.status = false := by
    have hw : ∀ w, written w ≠ .ok none := by
      intro w; unfold written; cases w.err <;> simp
    unfold handleResponse
    dsimp only
    rcases s.pending.get? resp.tcp_header.request_id with _ | next | _
    · simp
    · unfold handleRegistered
      rcases hb : AcknowledgedResponse.readFrom body with e | ⟨ack, rest⟩
      · simp
      · cases hs : ack.status with
        | false => simp [hs]
        | true => simp [hs, hw]
    · unfold handleSettings
      dsimp only
      rcases Settings.readFrom env.depth s.settings body with ⟨d, _ | q⟩
      · simp
      · cases s.init <;> simp [hw]
  rw [← hnone, ← hres]
  have hm : ∀ (t : String) (l : List LogRecord), ⟨.warning, t⟩ ∈ l ↔ ⟨.warning, t⟩ ∈ atInfo l := by
    intro t l; unfold atInfo; simp
  have hne : ∀ t u : String, "< response id " ++ t ++ " not registered" ≠ "! #" ++ u := by
    intro t u e
    have := congrArg (fun s : String => s.toList.head?) e
    simp [String.toList_append] at this
  rw [hm]
  rcases hr : (onInput env ch s raw).2 with x | _ | out
  · have hi := inputLog_of p env ch s raw
    unfold chunkLog
    rw [hr] at hi ⊢
    rw [atInfo_append, atInfo_append]
    constructor
    · intro hx
      rcases List.mem_append.1 hx with hx | hx
      · rcases List.mem_append.1 hx with hx | hx
        · simp [atInfo] at hx
        · exact absurd rfl (hi _ hx)
      · simp only [atInfo, ne_eq, reduceCtorEq, not_false_eq_true, decide_true, List.filter_cons_of_pos, List.filter_nil,
          List.mem_singleton, LogRecord.mk.injEq, true_and] at hx
        exact absurd hx (hne _ _)
    · intro hx; cases hx
  · refine ⟨fun _ => rfl, fun _ => ?_⟩
    rw [← hm]
    unfold chunkLog inputLog
    rw [hres] at hr
    simp only [hn, h1, h2, h3, hq, he, Bool.false_eq_true, if_false, hr]
    simp
  · obtain ⟨⟨read, text, hc⟩, _⟩ := C112_answered p env ch s raw failure hr
    constructor
    · intro hx
      cases sent with
      | none => rw [hc] at hx; simp at hx
      | some why =>
        rw [C112_lost p env ch s raw failure why hr, hc] at hx
        simp [hne] at hx
    · intro hx; cases hx


/-- C113: a registration that the peer refuses is reported as if nobody had asked for it. -/
theorem C113_refused_violated (env : Ext σ H) (ch : Choice) (s : Host σ) {raw body rest : Bytes} {resp : OutboundResponse}
    {next : OutboundRequest} (failure : String) (h : IsResponse raw resp body) (he : resp.tcp_header.isError = false)
    (hp : s.pending.get? resp.tcp_header.request_id = some (.registerRest next))
    (hb : AcknowledgedResponse.readFrom body = .ok (⟨false⟩, rest)) :
    ⟨.warning, "< response id " ++ toString resp.tcp_header.request_id ++ " not registered"⟩ ∈
        chunkLog p env ch s raw failure none :=
  (C113_exact_partial p env ch s failure none h he).2 (.inr ⟨next, ⟨false⟩, rest, hp, hb, rfl⟩)

/-- C112: an answered request, one that is cut off and a response nobody waits for. -/
example : ((onInput sampleExt sampleChoice sampleHost sampleRestFrame).2.toOption.bind id).isSome = true ∧
    (onInput sampleExt sampleChoice sampleHost (sampleRestFrame.take 120)).2.toOption = none ∧
    (onInput sampleExt sampleChoice sampleHost (sampleAck true 99)).2.toOption = some none := by decide +kernel

/-- C112: what is shown of a request that is cut off, and of two bytes that are no message but get an answer. -/
example : (atInfo (chunkLog shownAscii sampleExt sampleChoice sampleHost (sampleRestFrame.take 120) "boom" none)).map (·.level) =
      [.info, .info, .warning] ∧
    (atInfo (chunkLog shownAscii sampleExt sampleChoice sampleHost [71, 10] "" none)).map (·.text) = ["b'G\\n'",
      "< prefix=b'G\\n', version=0.0.0.0, type=['request'], message=0 byte(s), id=0, ctx=req={}, res={}, None, features=[], action=",
      "> prefix=b'ES', version=7.9.99.99, type=['response'], message=90 byte(s), id=2, ctx=req={}, res={}, " ++
        "status=RestStatus.NOT_FOUND, content_type=application/json; charset=UTF-8, headers={}, content=34 byte(s), features=[], " ++
        "size=96 byte(s)"] := by decide +kernel

/-- C113: the host after an initialisation waits for an answer; refused, it claims that it had not asked. -/
example := C113_refused_violated p sampleExt sampleChoice sampleInited "" sampleNack_isResponse
  (by decide +kernel) sampleInited_pending (rest := []) (by decide +kernel)

section
variable (p : Shown)
example := C112_answered p sampleExt sampleChoice sampleHost sampleRestFrame "" (congrArg Prod.snd sampleRest_sends)
example := C112_lost p sampleExt sampleChoice sampleHost sampleRestFrame "" "broken pipe" (congrArg Prod.snd sampleRest_sends)
example := C112_request p sampleExt sampleChoice sampleHost "" none sampleRest_isRequest
example := C112_unanswered p sampleExt sampleChoice sampleHost (sampleRestFrame.take 120) "boom" none (fun out h => by
  have e : (onInput sampleExt sampleChoice sampleHost (sampleRestFrame.take 120)).2.toOption = none := by decide +kernel
  rw [h] at e; cases e)
example := C113_exact_partial p sampleExt sampleChoice sampleInited "" none sampleNack_isResponse (by decide +kernel)
end

end Verif
