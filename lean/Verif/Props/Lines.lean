import Verif.Spec.Log
import Verif.Spec.History
import Verif.Props.Log
import Verif.Props.Secrets
import Verif.Lemmas.HostInv
import Verif.Lemmas.Host
import Verif.Lemmas.Sample
/-!
# The whole log of an input, one line to a record (C98)
-/

namespace Verif
open Py

variable {σ H : Type} (p : Shown)

theorem oneLine_taskId (t : TaskId) : OneLine t.str ↔ OneLine t.node_id := by
  have h : OneLine (match t.id with | some i => toString i | none => "None") := by
    cases t.id with
    | none => exact (by decide +kernel : OneLine "None")
    | some i => exact oneLine_int i
  unfold TaskId.str
  simp only [oneLine_append]
  exact ⟨fun h => h.1.1.2, fun hn => ⟨⟨⟨by decide +kernel, hn⟩, by decide +kernel⟩, h⟩⟩

theorem oneLine_lt {s : String} (h : OneLine s) : OneLine ("< " ++ s) := oneLine_append.2 ⟨by decide +kernel, h⟩

theorem sendLog_lines {t : String} (h : OneLine t) (w : W) : ∀ r ∈ sendLog t w, OneLine r.text := by
  unfold sendLog
  cases w.err with
  | some e => simp
  | none =>
    intro r hr
    simp only [List.mem_cons, List.not_mem_nil, or_false] at hr
    rcases hr with rfl | rfl
    · simp only [oneLine_append, oneLine_nat, h, and_true]
      decide +kernel
    · simp only [oneLine_append, oneLine_bytesRepr, and_true]
      decide +kernel

theorem replyLog_lines (ch : Choice) (s : Host σ) (q : OutboundRequest) (m : W) {t : String} (h : OneLine t) :
    ∀ r ∈ replyLog p ch s q m t, OneLine r.text := by
  unfold replyLog
  rcases replyTo q m s.ids with ⟨_ | q, ids⟩
  · simp
  · exact sendLog_lines ((response_oneLine p q (some t)).2 h) _

theorem new_action {ctx : Option ThreadContext} {f : List String} {m : Option W} {v : VerField} {a : String}
    {n : Option Int} {hs cp : Bool} {ids ids' : Nat} {q : OutboundRequest}
    (h : OutboundRequest.new ctx f m v a n hs cp ids = (.ok q, ids')) : q.action = a := by
  unfold OutboundRequest.new at h
  split at h
  · cases h
  · cases h
    rfl

theorem lines_cons {t : LogRecord} {l : List LogRecord} (h : OneLine t.text) (hl : ∀ r ∈ l, OneLine r.text) :
    ∀ r ∈ t :: l, OneLine r.text := by
  intro r hr
  rcases List.mem_cons.1 hr with rfl | hr
  · exact h
  · exact hl r hr

theorem requestLog_lines {env : Ext σ H} (he : PlainExtension env) (ch : Choice) (s : Host σ) {raw : Bytes}
    {q : OutboundRequest} {input : Bytes} (hp : PlainInput raw) (hq : IsRequest raw q input) :
    ∀ r ∈ requestLog p env ch s q input, OneLine r.text := by
  obtain ⟨ha, hi, hr, ht⟩ := hp q input hq
  have h0t : OneLine (TaskId.str {}) := by decide +kernel
  unfold requestLog
  by_cases h0 : q.action = "internal:discovery/extensions"
  · rw [if_pos h0]
    have hi := hi h0
    unfold initLog
    generalize InitializeExtensionResponse.writeTo _ = m1
    generalize (ExtensionTransportRequest.new .REQUEST_EXTENSION_ENVIRONMENT_SETTINGS "").writeTo = m2
    generalize (RegisterRestActionsRequest.new env.name env.registry.named_routes []).writeTo = m3
    rcases hx : InitializeExtensionRequest.readFrom input with e | ⟨m, rest⟩
    · simp
    · dsimp only
      refine lines_cons ((C98_init_partial p m).2 (hi m rest hx)) ?_
      rcases replyTo q _ s.ids with ⟨_ | q', ids⟩
      · simp
      dsimp only
      rcases OutboundRequest.new (some q.ctx) q.features
          (some m2)
          minCompat "internal:discovery/enviornmentsettings" none false false ids with ⟨_ | q', ids⟩
      · simp
      dsimp only
      rcases hn : OutboundRequest.new (some q.ctx) q.features
            (some m3)
            minCompat "internal:discovery/registerrestactions" none false false ids with ⟨_ | q', ids⟩
      · simp
      refine sendLog_lines ((request_oneLine p q' (some _)).2 ⟨h0t, ?_⟩) _
      rw [new_action hn]; decide +kernel
  rw [if_neg h0]
  by_cases h1 : q.action = "internal:extensions/restexecuteonextensiontaction"
  · rw [if_pos h1]
    have hr := hr h1
    unfold restLog
    rcases hx : ExtensionRestRequest.readFrom {} input with e | ⟨m, rest⟩
    · simp
    · dsimp only
      refine lines_cons ((C98_rest_partial p m).2 (hr m rest hx)) ?_
      cases m.method with
      | none => simp
      | some v =>
        dsimp only
        rcases hh : env.registry.handle env.run (v.name ++ " " ++ m.path) s.ext m with ⟨x, _ | q'⟩
        · simp
        · refine replyLog_lines p _ _ _ _ ((C98_reply_partial p _).2 ?_)
          show OneLine q'.content_type
          unfold Registry.handle at hh
          split at hh
          · exact he.2 _ _ _ _ _ hh
          · cases hh
  rw [if_neg h1]
  by_cases h2 : q.action = "internal:tcp/handshake"
  · rw [if_pos h2]
    unfold tcpHandshakeLog
    have h3 : OneLine (HandshakerResponse.str p ⟨Version.new Version.CURRENT⟩) := by
      unfold HandshakerResponse.str
      exact oneLine_append.2 ⟨by decide +kernel, oneLine_version p _⟩
    generalize HandshakerResponse.str p _ = t at h3
    generalize HandshakerResponse.writeTo _ = m1
    rcases HandshakerRequest.readFrom input with e | ⟨m, rest⟩
    · simp
    · dsimp only
      refine lines_cons (oneLine_lt ?_) (replyLog_lines p ch s q _ h3)
      unfold HandshakerRequest.str
      refine oneLine_append.2 ⟨by decide +kernel, ?_⟩
      cases m.version with
      | none => exact (by decide +kernel : OneLine "None")
      | some v => exact oneLine_version p _
  rw [if_neg h2]
  by_cases h3 : q.action = "internal:transport/handshake"
  · rw [if_pos h3]
    have ht := ht h3
    unfold transportHandshakeLog
    have h3 : OneLine (ServiceHandshakeResponse.str p false ⟨some (helloWorldNode ch), "", Version.new Version.CURRENT⟩) := by
      have hn : OneLine ((helloWorldNode ch).str p false) := (node_oneLine p false _).2 (by
        have hd : OneLine (dotted (127 * 256 ^ 3 + 1)) := by decide +kernel
        generalize hx : 127 * 256 ^ 3 + 1 = x at hd
        unfold helloWorldNode
        rw [hx]
        exact ⟨(by decide +kernel : OneLine "hello-world"), (by decide +kernel : OneLine "hello-world"), hd, hd⟩)
      unfold ServiceHandshakeResponse.str
      exact oneLine_append.2 ⟨oneLine_append.2 ⟨oneLine_append.2 ⟨oneLine_append.2 ⟨hn, by decide +kernel⟩, (by decide +kernel : OneLine "")⟩,
        by decide +kernel⟩, oneLine_version p _⟩
    generalize ServiceHandshakeResponse.str p _ _ = t at h3
    generalize ServiceHandshakeResponse.writeTo _ = m1
    rcases hx : ServiceHandshakeRequest.readFrom input with e | ⟨m, rest⟩
    · simp
    · dsimp only
      exact lines_cons (oneLine_lt ((oneLine_taskId _).2 (ht m rest hx))) (replyLog_lines p ch s q _ h3)
  · rw [if_neg h3]
    unfold notFoundLog
    refine replyLog_lines p ch s q _ ((C98_reply_partial p _).2 ?_)
    show OneLine JSON_CONTENT_TYPE
    decide +kernel

theorem responseLog_lines {env : Ext σ H} {s : Host σ} (hI : Inv env s) (he : PlainExtension env) (ch : Choice) (n : Nat)
    (q : OutboundResponse) (input : Bytes) :
    ∀ r ∈ responseLog p env ch { s with ids := n } q input, OneLine r.text := by
  have h0t : OneLine (TaskId.str {}) := by decide +kernel
  unfold responseLog
  dsimp only
  rcases hg : s.pending.get? q.tcp_header.request_id with _ | next | _
  · simp
  · unfold registeredLog
    dsimp only
    rcases AcknowledgedResponse.readFrom input with e | ⟨m, rest⟩
    · simp
    · dsimp only
      refine lines_cons (oneLine_lt (oneLine_append.2 ⟨by decide +kernel, oneLine_bool _⟩)) ?_
      cases m.status with
      | false => simp
      | true =>
        rw [if_pos rfl]
        refine sendLog_lines ((request_oneLine p next (some _)).2 ⟨h0t, ?_⟩) _
        obtain ⟨ctx, f, i, _, _, _, h⟩ := hI.reg _ next (Dict.get?_mem hg)
        rw [new_action h]; decide +kernel
  · unfold settingsLog
    dsimp only
    rcases Settings.readFrom env.depth s.settings input with ⟨d, _ | q⟩
    · simp
    · dsimp only
      refine lines_cons (oneLine_lt (oneLine_object p _ _ (by decide +kernel))) ?_
      cases s.init with
      | none => simp
      | some r =>
        refine sendLog_lines ((response_oneLine p r _).2 ?_) _
        exact oneLine_append.2 ⟨oneLine_append.2 ⟨oneLine_append.2 ⟨by decide +kernel, he.1⟩, by decide +kernel⟩, oneLine_strs p _⟩

/-- C98: nothing else.  Whatever a host has been through, an input in which the fields that are shown as they are have no line
break is logged one line to a record — everything: what was received, what every handler says about it, what is sent. -/
theorem C98_log_partial {env : Ext σ H} {s : Host σ} (hs : Reachable env s) (he : PlainExtension env) (ch : Choice) {raw : Bytes}
    (hp : PlainInput raw) {failure : String} (hf : OneLine failure) {sent : Option String} (ht : ∀ t, sent = some t → OneLine t) :
    ∀ r ∈ chunkLog p env ch s raw failure sent, OneLine r.text := by
  obtain ⟨hr1, hr2, hr3⟩ := C98_raw_partial raw
  have hbang : ∀ t, OneLine t → OneLine ("! #" ++ t) := fun t h => oneLine_append.2 ⟨by decide +kernel, h⟩
  have hin : ∀ r ∈ inputLog p env ch s raw, OneLine r.text := by
    unfold inputLog
    dsimp only
    have hn : (TcpHeader.new (.int Version.CURRENT) 0 none s.ids).2 = s.ids + 1 := rfl
    rw [hn]
    rcases hh : TcpHeader.readFrom raw with e | ⟨header, input⟩
    · simp
    refine lines_cons (oneLine_lt (header_oneLine p header)) ?_
    cases hq : header.isRequest with
    | true =>
      rw [if_pos rfl]
      rcases hb : OutboundRequest.new none [] none .none "" none false false (s.ids + 1) with ⟨_ | blank, ids⟩
      · simp
      dsimp only
      rcases hq' : blank.readFrom (some header) input with e | ⟨request, body⟩
      · simp
      have hids : ids = s.ids + 1 + 1 := by
        obtain ⟨b, h, _⟩ := blankRequest_new (s.ids + 1)
        rw [hb] at h
        exact (Prod.mk.inj h).2
      subst hids
      have hreq : IsRequest raw request body :=
        ⟨(parsesAsRequest_iff (s.ids + 1)).2 ⟨blank, header, input, hb, hh, hq'⟩, by rw [(request_readFrom_ok hq').1]; exact hq⟩
      exact lines_cons (oneLine_lt ((request_oneLine p request none).2 ⟨by decide +kernel, (hp request body hreq).1⟩))
        (requestLog_lines p he ch _ hp hreq)
    | false =>
      rw [if_neg Bool.false_ne_true]
      rcases OutboundResponse.new none [] none .none none false false (s.ids + 1) with ⟨_ | blank, ids⟩
      · simp
      dsimp only
      rcases blank.readFrom (some header) input with e | ⟨response, body⟩
      · simp
      dsimp only
      cases response.tcp_header.isError with
      | true =>
        rw [if_pos rfl]
        exact lines_cons (oneLine_append.2 ⟨by decide +kernel, header_oneLine p header⟩) (by simp)
      | false =>
        rw [if_neg Bool.false_ne_true]
        refine lines_cons (oneLine_append.2 ⟨by decide +kernel, (response_oneLine p response none).2 (by decide +kernel)⟩) ?_
        intro r hr
        rcases List.mem_append.1 hr with hr | hr
        · exact responseLog_lines p hs.inv he ch ids response body r hr
        · split at hr
          · cases List.mem_singleton.1 hr
            exact oneLine_append.2 ⟨oneLine_append.2 ⟨by decide +kernel, oneLine_int _⟩, by decide +kernel⟩
          · cases hr
  intro r hr
  unfold chunkLog at hr
  rcases List.mem_append.1 hr with hr | hr
  · rcases List.mem_append.1 hr with hr | hr
    · simp only [List.mem_cons, List.not_mem_nil, or_false] at hr
      rcases hr with rfl | rfl
      · exact hr1
      · exact hr2
    · exact hin r hr
  · split at hr
    · cases List.mem_singleton.1 hr
      exact hbang _ hf
    · cases hr
    · rename_i out _
      rcases List.mem_cons.1 hr with rfl | hr
      · exact (C98_raw_partial out).2.2
      · split at hr
        · cases List.mem_singleton.1 hr
          exact hbang _ (ht _ rfl)
        · cases hr

/-- What is shown of the sample request: its URI and its path. -/
theorem sampleRest_plainInput : PlainInput sampleRestFrame := by
  intro req body h
  obtain ⟨rfl, rfl⟩ := IsRequest.unique sampleRest_isRequest h
  have ha : (requestIn sampleRestFrame).action = "internal:extensions/restexecuteonextensiontaction" := by decide +kernel
  have hr : (ExtensionRestRequest.readFrom {} (requestBody sampleRestFrame)).toOption.map (fun m => (m.1.uri, m.1.path)) =
      some ("/hello/Ann?x=1", "/hello/Ann") := by decide +kernel
  rw [ha]
  refine ⟨by decide +kernel, fun h => absurd h (by decide +kernel), fun _ r rest h => ?_, fun h => absurd h (by decide +kernel)⟩
  rw [h] at hr
  simp only [Except.toOption, Option.map_some, Option.some.injEq, Prod.mk.injEq] at hr
  rw [hr.1, hr.2]
  decide +kernel

/-- The sample extension has a plain name, and its handlers answer in plain text. -/
theorem sampleExt_plain : PlainExtension sampleExt := by
  refine ⟨by decide +kernel, fun h x r x' resp e => ?_⟩
  have : (x + 1, (Except.ok (ExtensionRestResponse.new (some r) (some .OK) (r.content_ ++ [33])) :
    Except Err ExtensionRestResponse)) = (x', .ok resp) := e
  cases this
  exact (by decide +kernel : OneLine TEXT_CONTENT_TYPE)

/-- C98: a REST request on a host that has been initialised: every record takes one line. -/
example (p : Shown) : ∀ r ∈ chunkLog p sampleExt sampleChoice sampleInited sampleRestFrame "boom" none, OneLine r.text :=
  C98_log_partial p sampleInited_reachable sampleExt_plain sampleChoice sampleRest_plainInput (by decide +kernel) (by simp)

end Verif
