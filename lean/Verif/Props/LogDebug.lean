import Verif.Props.Log
import Verif.Lemmas.HostInv
/-!
# What the log tells at DEBUG (C119)
-/

namespace Verif
open Py

variable {σ H : Type} (p : Shown)

/-- A handler that answered logged, last, the record of what it sent and the bytes it wrote. -/
def LogEnds (l : List LogRecord) (result : Except Err (Option Bytes)) : Prop :=
  match result with
  | .ok (some out) => ∃ pre text, l = pre ++ [⟨.info, "> " ++ text ++ ", size=" ++ toString out.length ++ " byte(s)"⟩,
      ⟨.debug, "> #" ++ bytesRepr out⟩]
  | _ => True

theorem LogEnds.cons {x : LogRecord} {l : List LogRecord} {r} (h : LogEnds l r) : LogEnds (x :: l) r := by
  unfold LogEnds at h ⊢
  rcases r with _ | _ | out
  · trivial
  · trivial
  · obtain ⟨pre, text, h⟩ := h
    exact ⟨x :: pre, text, by rw [h]; rfl⟩

theorem LogEnds.debug {t : String} {l : List LogRecord} {r} (h : LogEnds l r) : LogEnds (⟨.debug, t⟩ :: l) r := h.cons

theorem sendLog_ends (text : String) (w : W) : LogEnds (sendLog text w) (written w) := by
  unfold sendLog written
  cases w.err with
  | some e => trivial
  | none => exact ⟨[], text, rfl⟩

theorem replyLog_ends (ch : Choice) (s : Host σ) (r : OutboundRequest) (m : W) (t : String) :
    LogEnds (replyLog p ch s r m t) (sendReply ch s r m).2 := by
  unfold replyLog sendReply
  rcases replyTo r m s.ids with ⟨_ | q, ids⟩
  · trivial
  · exact sendLog_ends _ _

theorem requestLog_ends (env : Ext σ H) (ch : Choice) (s : Host σ) (r : OutboundRequest) (input : Bytes) :
    LogEnds (requestLog p env ch s r input) (handleRequest env ch s r input).2 := by
  unfold requestLog handleRequest
  by_cases h0 : r.action = "internal:discovery/extensions"
  · rw [if_pos h0, if_pos h0]
    unfold initLog handleInit
    generalize InitializeExtensionResponse.writeTo _ = m1
    generalize (ExtensionTransportRequest.new .REQUEST_EXTENSION_ENVIRONMENT_SETTINGS "").writeTo = m2
    generalize (RegisterRestActionsRequest.new env.name env.registry.named_routes []).writeTo = m3
    cases InitializeExtensionRequest.readFrom input with
    | error e => trivial
    | ok m =>
      dsimp only
      refine LogEnds.debug ?_
      rcases replyTo r _ s.ids with ⟨_ | q, ids⟩
      · trivial
      dsimp only
      rcases OutboundRequest.new (some r.ctx) r.features
          (some m2)
          minCompat "internal:discovery/enviornmentsettings" none false false ids with ⟨_ | q, ids⟩
      · trivial
      dsimp only
      rcases OutboundRequest.new (some r.ctx) r.features
            (some m3)
            minCompat "internal:discovery/registerrestactions" none false false ids with ⟨_ | q, ids⟩
      · trivial
      exact sendLog_ends _ _
  rw [if_neg h0, if_neg h0]
  by_cases h1 : r.action = "internal:extensions/restexecuteonextensiontaction"
  · rw [if_pos h1, if_pos h1]
    unfold restLog handleRest
    cases ExtensionRestRequest.readFrom {} input with
    | error e => trivial
    | ok m =>
      obtain ⟨m, _⟩ := m
      refine LogEnds.debug ?_
      dsimp only
      cases m.method with
      | none => trivial
      | some v =>
        dsimp only
        rcases env.registry.handle env.run (v.name ++ " " ++ m.path) s.ext m with ⟨x, _ | q⟩
        · trivial
        exact replyLog_ends p ..
  rw [if_neg h1, if_neg h1]
  by_cases h2 : r.action = "internal:tcp/handshake"
  · rw [if_pos h2, if_pos h2]
    unfold tcpHandshakeLog handleTcpHandshake
    cases HandshakerRequest.readFrom input with
    | error e => trivial
    | ok m =>
      dsimp only
      exact LogEnds.debug (replyLog_ends p ch s r _ _)
  rw [if_neg h2, if_neg h2]
  by_cases h3 : r.action = "internal:transport/handshake"
  · rw [if_pos h3, if_pos h3]
    unfold transportHandshakeLog handleTransportHandshake
    generalize ServiceHandshakeResponse.writeTo _ = m
    generalize ServiceHandshakeResponse.str p _ _ = t
    cases ServiceHandshakeRequest.readFrom input with
    | error e => trivial
    | ok m =>
      dsimp only
      exact LogEnds.debug (replyLog_ends p ch s r _ _)
  · rw [if_neg h3, if_neg h3]
    unfold notFoundLog handleNotFound
    generalize (notFoundResponse r.action).writeTo = m
    generalize (notFoundResponse r.action).str p = t
    exact replyLog_ends p ch s r _ _

theorem responseLog_ends (env : Ext σ H) (ch : Choice) (s : Host σ) (r : OutboundResponse) (input : Bytes) :
    LogEnds (responseLog p env ch s r input) (handleResponse env ch s r input).2 := by
  unfold responseLog handleResponse
  rcases s.pending.get? r.tcp_header.request_id with _ | _ | _
  · trivial
  · unfold registeredLog handleRegistered
    dsimp only
    cases AcknowledgedResponse.readFrom input with
    | error e => trivial
    | ok m =>
      refine LogEnds.debug ?_
      dsimp only
      cases m.1.status with
      | false => trivial
      | true => exact sendLog_ends _ _
  · unfold settingsLog handleSettings
    dsimp only
    rcases Settings.readFrom env.depth s.settings input with ⟨d, _ | q⟩
    · trivial
    refine LogEnds.debug ?_
    dsimp only
    cases s.init with
    | none => trivial
    | some r => exact sendLog_ends _ _


/-- The log of a request: the chunk, its header, the request, and what the handler logs. -/
theorem chunkLog_request (env : Ext σ H) (ch : Choice) (s : Host σ) {raw body : Bytes} {req : OutboundRequest} (failure : String)
    (sent : Option String) (h : IsRequest raw req body) :
    ∃ l, chunkLog p env ch s raw failure sent =
      [⟨.info, readRecord raw⟩, ⟨.debug, rawRecord "<" raw⟩, ⟨.debug, "< " ++ req.tcp_header.str p⟩,
        ⟨.info, "< " ++ req.str p none⟩] ++ requestLog p env ch { s with ids := s.ids + 2 } req body ++ l := by
  obtain ⟨bl, hd, rest, h1, h2, h3⟩ := (parsesAsRequest_iff (s.ids + 1)).1 h.1
  have e := (request_readFrom_ok h3).1
  have hq : hd.isRequest = true := by rw [← e]; exact h.2
  unfold chunkLog inputLog
  have hn : (TcpHeader.new (.int Version.CURRENT) 0 none s.ids).2 = s.ids + 1 := rfl
  simp only [hn, h1, h2, h3, hq, if_true]
  rw [e]
  exact ⟨_, rfl⟩

/-- The log of a response that is not an error: the chunk, its header, the response, and what the handler logs. -/
theorem chunkLog_response (env : Ext σ H) (ch : Choice) (s : Host σ) {raw body : Bytes} {resp : OutboundResponse}
    (failure : String) (sent : Option String) (h : IsResponse raw resp body) (he : resp.tcp_header.isError = false) :
    ∃ l, chunkLog p env ch s raw failure sent =
      [⟨.info, readRecord raw⟩, ⟨.debug, rawRecord "<" raw⟩, ⟨.debug, "< " ++ resp.tcp_header.str p⟩,
        ⟨.info, "< response " ++ resp.str p none⟩] ++ responseLog p env ch { s with ids := s.ids + 2 } resp body ++ l := by
  obtain ⟨bl, hd, rest, h1, h2, h3⟩ := (parsesAsResponse_iff (s.ids + 1)).1 h.1
  have e := (response_readFrom_ok h3).1
  have hq : hd.isRequest = false := by
    have := h.2
    rw [e] at this
    unfold TcpHeader.isRequest; rw [this]; rfl
  have hn : (TcpHeader.new (.int Version.CURRENT) 0 none s.ids).2 = s.ids + 1 := rfl
  unfold chunkLog inputLog
  simp only [hn, h1, h2, h3, hq, he, Bool.false_eq_true, if_false]
  rw [e]
  simp only [List.cons_append, List.nil_append, List.append_assoc]
  exact ⟨_, rfl⟩

/-- C119, requests: at DEBUG the log of a request that is understood shows the chunk with its size, then the header, and, after
the record of the request, what the request carries: the version a TCP handshake asks about, the task of a transport handshake,
the REST request, the nodes of an initialisation. -/
theorem C119_requests (env : Ext σ H) (ch : Choice) (s : Host σ) {raw body : Bytes} {req : OutboundRequest} (failure : String)
    (sent : Option String) (h : IsRequest raw req body) {text : String} (ht : CarriedText p req.action body text) :
    ∃ l, debugging (chunkLog p env ch s raw failure sent) =
      ("< #" ++ bytesRepr raw ++ ", size=" ++ toString raw.length ++ " byte(s)") :: ("< " ++ req.tcp_header.str p) ::
        ("< " ++ text) :: l := by
  obtain ⟨l, hl⟩ := chunkLog_request p env ch s failure sent h
  rw [hl]
  have key : ∃ l, requestLog p env ch { s with ids := s.ids + 2 } req body = ⟨.debug, "< " ++ text⟩ :: l := by
    unfold requestLog
    cases ht with
    | tcp ha hm =>
      rw [if_neg (by rw [ha]; decide), if_neg (by rw [ha]; decide), if_pos ha]
      unfold tcpHandshakeLog; rw [hm]; exact ⟨_, rfl⟩
    | transport ha hm =>
      rw [if_neg (by rw [ha]; decide), if_neg (by rw [ha]; decide), if_neg (by rw [ha]; decide), if_pos ha]
      unfold transportHandshakeLog; rw [hm]; exact ⟨_, rfl⟩
    | rest ha hm =>
      rw [if_neg (by rw [ha]; decide), if_pos ha]
      unfold restLog; rw [hm]; exact ⟨_, rfl⟩
    | init ha hm =>
      rw [if_pos ha]
      unfold initLog; rw [hm]; exact ⟨_, rfl⟩
  obtain ⟨l', hl'⟩ := key
  rw [hl']
  exact ⟨_, rfl⟩

example := C119_requests p sampleExt sampleChoice sampleHost "" none sampleTcp_isRequest
  (.tcp (by decide +kernel) (m := sampleTcp) (rest := []) (by decide +kernel))

/-- C119, acknowledgements: likewise, of the answer the registration waits for. -/
theorem C119_acknowledged (env : Ext σ H) (ch : Choice) (s : Host σ) {raw body rest : Bytes} {resp : OutboundResponse}
    {next : OutboundRequest} {ack : AcknowledgedResponse} (failure : String) (sent : Option String)
    (h : IsResponse raw resp body) (he : resp.tcp_header.isError = false)
    (hp : s.pending.get? resp.tcp_header.request_id = some (.registerRest next))
    (hb : AcknowledgedResponse.readFrom body = .ok (ack, rest)) :
    ∃ l, debugging (chunkLog p env ch s raw failure sent) =
      ("< #" ++ bytesRepr raw ++ ", size=" ++ toString raw.length ++ " byte(s)") :: ("< " ++ resp.tcp_header.str p) ::
        ("< status=" ++ (if ack.status then "True" else "False")) :: l := by
  obtain ⟨l, hl⟩ := chunkLog_response p env ch s failure sent h he
  rw [hl]
  have key : ∃ l, responseLog p env ch { s with ids := s.ids + 2 } resp body =
      ⟨.debug, "< status=" ++ (if ack.status then "True" else "False")⟩ :: l := by
    unfold responseLog
    dsimp only
    rw [hp]
    dsimp only
    unfold registeredLog
    rw [hb]
    obtain ⟨b⟩ := ack
    cases b <;> exact ⟨_, rfl⟩
  obtain ⟨l', hl'⟩ := key
  rw [hl']
  exact ⟨_, rfl⟩

example := C119_acknowledged p sampleExt sampleChoice sampleInited "" none sampleNack_isResponse
  (by decide +kernel) sampleInited_pending (rest := []) (ack := ⟨false⟩) (by decide +kernel)

/-- C119, answers: whatever is answered, the log ends with the record of what was sent, the bytes as they were written, and the
bytes as they were sent with their number. -/
theorem C119_sent (env : Ext σ H) (ch : Choice) (s : Host σ) (raw : Bytes) (failure : String) {out : Bytes}
    (h : (onInput env ch s raw).2 = .ok (some out)) :
    ∃ pre text, chunkLog p env ch s raw failure none = pre ++
      [⟨.info, "> " ++ text ++ ", size=" ++ toString out.length ++ " byte(s)"⟩, ⟨.debug, "> #" ++ bytesRepr out⟩,
        ⟨.debug, "> #" ++ bytesRepr out ++ ", size=" ++ toString out.length ++ " byte(s)"⟩] := by
  have hi : LogEnds (inputLog p env ch s raw) (.ok (some out)) := by
    rw [← h]
    unfold inputLog onInput
    dsimp only
    cases TcpHeader.readFrom raw with
    | error e => trivial
    | ok q =>
      obtain ⟨header, input⟩ := q
      dsimp only
      cases header.isRequest with
      | true =>
        rw [if_pos rfl, if_pos rfl]
        generalize (TcpHeader.new (.int Version.CURRENT) 0 none s.ids).2 = n
        rcases OutboundRequest.new none [] none .none "" none false false n with ⟨_ | blank, ids⟩
        · trivial
        dsimp only
        cases blank.readFrom (some header) input with
        | error e => trivial
        | ok q =>
          obtain ⟨request, input⟩ := q
          dsimp only
          exact (requestLog_ends p env ch { s with ids := ids } request input).cons.cons
      | false =>
        rw [if_neg Bool.false_ne_true, if_neg Bool.false_ne_true]
        generalize (TcpHeader.new (.int Version.CURRENT) 0 none s.ids).2 = n
        rcases OutboundResponse.new none [] none .none none false false n with ⟨_ | blank, ids⟩
        · trivial
        dsimp only
        cases blank.readFrom (some header) input with
        | error e => trivial
        | ok q =>
          obtain ⟨response, input⟩ := q
          dsimp only
          cases response.tcp_header.isError with
          | true =>
            rw [if_pos rfl, if_pos rfl]; trivial
          | false =>
            rw [if_neg Bool.false_ne_true, if_neg Bool.false_ne_true]
            have h1 := responseLog_ends p env ch { s with ids := ids } response input
            generalize (handleResponse env ch { s with ids := ids } response input) = res at h1
            obtain ⟨s', res⟩ := res
            rcases res with e | _ | out
            · trivial
            · trivial
            · dsimp only at h1 ⊢
              rw [List.append_nil]
              exact h1.cons.cons
  obtain ⟨pre, text, hi⟩ := hi
  unfold chunkLog
  rw [h, hi]
  exact ⟨[⟨.info, readRecord raw⟩, ⟨.debug, rawRecord "<" raw⟩] ++ pre, text, by simp [rawRecord]⟩

example := C119_sent p sampleExt sampleChoice sampleHost sampleRestFrame "" (congrArg Prod.snd sampleRest_sends)

/-- C119 is violated by the settings of the node: whatever they are, the record of the answer that brings them shows the class
and the address of an object, and nothing of the settings. -/
theorem C119_settings_violated (env : Ext σ H) (ch : Choice) (s : Host σ) {raw body rest : Bytes} {resp : OutboundResponse}
    {d : Dict String PyVal} (failure : String) (sent : Option String)
    (h : IsResponse raw resp body) (he : resp.tcp_header.isError = false)
    (hp : s.pending.get? resp.tcp_header.request_id = some .settings)
    (hb : Settings.readFrom env.depth s.settings body = (d, .ok rest)) :
    ∃ l, debugging (chunkLog p env ch s raw failure sent) =
      ("< #" ++ bytesRepr raw ++ ", size=" ++ toString raw.length ++ " byte(s)") :: ("< " ++ resp.tcp_header.str p) ::
        ("< <opensearch_sdk_py.transport.environment_settings_response.EnvironmentSettingsResponse object at 0x" ++
          String.ofList ((p.address 0).map fun d => hexDigit d) ++ ">") :: l := by
  obtain ⟨l, hl⟩ := chunkLog_response p env ch s failure sent h he
  rw [hl]
  have key : ∃ l, responseLog p env ch { s with ids := s.ids + 2 } resp body =
      ⟨.debug, "< <opensearch_sdk_py.transport.environment_settings_response.EnvironmentSettingsResponse object at 0x" ++
          String.ofList ((p.address 0).map fun d => hexDigit d) ++ ">"⟩ :: l := by
    unfold responseLog
    dsimp only
    rw [hp]
    dsimp only
    unfold settingsLog
    dsimp only
    rw [hb]
    have ho : "< " ++ p.object "opensearch_sdk_py.transport.environment_settings_response.EnvironmentSettingsResponse" 0 =
        "< <opensearch_sdk_py.transport.environment_settings_response.EnvironmentSettingsResponse object at 0x" ++
          String.ofList ((p.address 0).map fun d => hexDigit d) ++ ">" := by
      unfold Shown.object
      rw [← String.append_assoc, ← String.append_assoc, ← String.append_assoc, ← String.append_assoc]
      rw [show "< " ++ "<" ++ "opensearch_sdk_py.transport.environment_settings_response.EnvironmentSettingsResponse" ++
        " object at 0x" =
        "< <opensearch_sdk_py.transport.environment_settings_response.EnvironmentSettingsResponse object at 0x" by decide +kernel]
    rw [← ho]
    exact ⟨_, rfl⟩
  obtain ⟨l', hl'⟩ := key
  rw [hl']
  exact ⟨_, rfl⟩

theorem sampleSettings_isResponse : IsResponse (sampleSettingsFrame 2) (responseIn (sampleSettingsFrame 2))
    (responseBody (sampleSettingsFrame 2)) := isResponse_of (by decide +kernel) (by decide +kernel)

theorem sampleSettings_read : Settings.readFrom sampleExt.depth sampleInited.settings (responseBody (sampleSettingsFrame 2)) =
    ((Settings.readFrom sampleExt.depth sampleInited.settings (responseBody (sampleSettingsFrame 2))).1, .ok []) := by
  have h : (Settings.readFrom sampleExt.depth sampleInited.settings (responseBody (sampleSettingsFrame 2))).2 = .ok [] := by
    decide +kernel
  rw [← h]

example := C119_settings_violated p sampleExt sampleChoice sampleInited "" none sampleSettings_isResponse
  (by decide +kernel) (by decide +kernel) sampleSettings_read

end Verif
