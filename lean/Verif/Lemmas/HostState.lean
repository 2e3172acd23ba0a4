import Verif.Lemmas.Host
import Verif.Lemmas.ProtoWrite
import Verif.Props.Requests
/-! What one input does to the host's state. -/

namespace Verif
open Py StreamInput StreamOutput

variable {σ H : Type}

/-- The features of a decoded request can be sent again. -/
theorem parsesAsRequest_features {raw : Bytes} {req : OutboundRequest} {body : Bytes}
    (h : ParsesAsRequest raw req body) : StrsOK req.features := by
  obtain ⟨bl, hd, rest, h1, h2, h3⟩ := (parsesAsRequest_iff 0).1 h
  have hbl : bl.features = [] := by
    obtain ⟨bl', e, _, _, _, f, _⟩ := blankRequest_new 0
    rw [h1] at e
    simp only [Prod.mk.injEq, Except.ok.injEq] at e
    rw [e.1]; exact f
  unfold OutboundRequest.readFrom at h3
  obtain ⟨c, mid, h4, h5⟩ := Reader.bind_eq_ok.1 h3
  split at h5
  · obtain ⟨p, mid', h6, h7⟩ := Reader.bind_eq_ok.1 h5
    have : (Except.ok (({ c with features := p.1, action := p.2 } : OutboundRequest), mid') :
      Except Err (OutboundRequest × Bytes)) = .ok (req, body) := h7
    cases this
    show StrsOK p.1
    unfold OutboundRequest.parseVariable at h6
    cases hv : (do let f ← readStringArray; let a ← readString; return (f, a) : Reader _) (c.variable_bytes.getD []) with
    | error e => rw [hv] at h6; simp at h6
    | ok q =>
      rw [hv] at h6
      simp only [Reader.lift_ok, Except.ok.injEq, Prod.mk.injEq] at h6
      obtain ⟨f, m1, g1, g2⟩ := Reader.bind_eq_ok.1 hv
      obtain ⟨a, m2, g3, g4⟩ := Reader.bind_eq_ok.1 g2
      have : (Except.ok ((f, a), m2) : Except Err ((List String × String) × Bytes)) = .ok q := g4
      cases this
      rw [← h6.1]
      exact ens_stringArray _ _ _ g1
  · have : (Except.ok (({ c with features := bl.features, action := bl.action } : OutboundRequest), mid) :
      Except Err (OutboundRequest × Bytes)) = .ok (req, body) := h5
    cases this
    show StrsOK bl.features
    rw [hbl]; decide +kernel

/-- The settings request that waits behind a registration. -/
def IsSettingsRequest (n : OutboundRequest) (ctx : ThreadContext) (f : List String) (i : Nat) : Prop :=
  OutboundRequest.new (some ctx) f
    (some (ExtensionTransportRequest.new .REQUEST_EXTENSION_ENVIRONMENT_SETTINGS "").writeTo)
    minCompat "internal:discovery/enviornmentsettings" none false false i = (.ok n, i + 1)

/-- The registration request for the extension `env`. -/
def IsRegisterRequest (env : Ext σ H) (n : OutboundRequest) (ctx : ThreadContext) (f : List String) (i : Nat) : Prop :=
  OutboundRequest.new (some ctx) f
    (some (RegisterRestActionsRequest.new env.name env.registry.named_routes []).writeTo)
    minCompat "internal:discovery/registerrestactions" none false false i = (.ok n, i + 1)

/-- The stored initialisation response for the request `req`, built when the counter was `ids`. -/
def IsInitResponse (env : Ext σ H) (r : OutboundResponse) (req : OutboundRequest) (ids : Nat) : Prop :=
  replyTo req (InitializeExtensionResponse.writeTo ⟨env.name, env.interfaces⟩) ids =
    (.ok r, idsAfter (some req.tcp_header.request_id) ids)

theorem requestNew_of_ok {ctx f w ver a rid hs cp ids} (hw : W.err w = none) :
    ∃ r, OutboundRequest.new ctx f (some w) ver a rid hs cp ids = (.ok r, idsAfter rid ids) := by
  have := requestNew_ids ctx f (some w) ver a rid hs cp ids
  unfold OutboundRequest.new OutboundMessage.new at this ⊢
  simp only [hw] at this ⊢
  rw [← this]
  exact ⟨_, rfl⟩

theorem responseNew_of_ok {ctx f w ver rid hs cp ids} (hw : W.err w = none) :
    ∃ r, OutboundResponse.new ctx f (some w) ver rid hs cp ids = (.ok r, idsAfter rid ids) := by
  have := responseNew_ids ctx f (some w) ver rid hs cp ids
  unfold OutboundResponse.new OutboundMessage.new at this ⊢
  simp only [hw] at this ⊢
  rw [← this]
  exact ⟨_, rfl⟩

theorem initResponse_err (m : InitializeExtensionResponse) : m.writeTo.err = none := by
  unfold InitializeExtensionResponse.writeTo writeStringArray
  simp only [W.err_append]
  exact ⟨writeString_err _, by simp, forEach_err fun x _ => writeString_err x⟩

theorem taskId_err : (TaskId.writeTo {}).err = none := by decide +kernel

theorem registerRequest_err (u : String) (a b : List String) :
    (RegisterRestActionsRequest.new u a b).writeTo.err = none := by
  unfold RegisterRestActionsRequest.writeTo
  simp only [W.err_append]
  exact ⟨taskId_err, by simp, rfl⟩

theorem settingsRequest_err :
    (ExtensionTransportRequest.new .REQUEST_EXTENSION_ENVIRONMENT_SETTINGS "").writeTo.err = none := by
  decide +kernel

/-- What `DiscoveryExtensionsRequestHandler.handle` does when the request decodes: it stores the
response, and queues a settings request behind a register-REST-actions request, which it sends. -/
theorem handleInit_ok (env : Ext σ H) (ch : Choice) (s : Host σ) (req : OutboundRequest) {body rest : Bytes}
    {m : InitializeExtensionRequest} (h : InitializeExtensionRequest.readFrom body = .ok (m, rest)) :
    ∃ (response : OutboundResponse) (sreq rreq : OutboundRequest) (i : Nat),
      i = idsAfter (some req.tcp_header.request_id) s.ids ∧ IsInitResponse env response req s.ids ∧
      IsSettingsRequest sreq req.ctx req.features i ∧ IsRegisterRequest env rreq req.ctx req.features (i + 1) ∧
      handleInit env ch s req body =
        ({ s with ids := i + 2
                  init := some response
                  pending := (s.pending.set (i : Int) .settings).set ((i + 1 : Nat) : Int) (.registerRest sreq) },
         written (rreq.writeTo ch.ho)) := by
  obtain ⟨response, h1⟩ : ∃ r, replyTo req _ s.ids = (.ok r, idsAfter (some req.tcp_header.request_id) s.ids) :=
    responseNew_of_ok (initResponse_err ⟨env.name, env.interfaces⟩)
  obtain ⟨sreq, h2⟩ := requestNew_of_ok (ctx := some req.ctx) (f := req.features) (ver := minCompat)
    (a := "internal:discovery/enviornmentsettings") (rid := none) (hs := false) (cp := false)
    (ids := idsAfter (some req.tcp_header.request_id) s.ids) settingsRequest_err
  obtain ⟨rreq, h3⟩ := requestNew_of_ok (ctx := some req.ctx) (f := req.features) (ver := minCompat)
    (a := "internal:discovery/registerrestactions") (rid := none) (hs := false) (cp := false)
    (ids := idsAfter (some req.tcp_header.request_id) s.ids + 1)
    (registerRequest_err env.name env.registry.named_routes [])
  have i2 := requestNew_id h2
  have i3 := requestNew_id h3
  refine ⟨response, sreq, rreq, _, rfl, h1, h2, h3, ?_⟩
  unfold handleInit
  simp only [h, h1]
  rw [h2]
  simp only [idsAfter] at h3 ⊢
  rw [h3]
  simp only [i2, i3]
  rfl

/-- `Settings.read_from` and the initialisation response, when the settings answer arrives. -/
theorem handleSettings_state (env : Ext σ H) (ch : Choice) (s : Host σ) (body : Bytes) :
    ∃ d, (handleSettings env ch s body).1 = { s with settings := d } := by
  unfold handleSettings
  split
  · exact ⟨_, rfl⟩
  · exact ⟨_, rfl⟩

theorem handleRegistered_state (ch : Choice) (s : Host σ) (n : OutboundRequest) (body : Bytes) :
    (handleRegistered ch s n body).1 = s := by
  unfold handleRegistered
  split
  · rfl
  · split <;> rfl

/-- What a response does to the state. -/
theorem handleResponse_state (env : Ext σ H) (ch : Choice) (s : Host σ) (resp : OutboundResponse) (body : Bytes) :
    ∃ d, (handleResponse env ch s resp body).1 =
      { s with pending := s.pending.erase resp.tcp_header.request_id, settings := d } := by
  unfold handleResponse
  cases hg : s.pending.get? resp.tcp_header.request_id with
  | none =>
    refine ⟨s.settings, ?_⟩
    rw [Dict.erase_of_not_mem (Dict.get?_eq_none.1 hg)]
  | some p =>
    cases p with
    | registerRest n => exact ⟨s.settings, handleRegistered_state ch _ n body⟩
    | settings => exact handleSettings_state env ch _ body

theorem idsAfter_ge (rid : Option Int) (n : Nat) : n ≤ idsAfter rid n ∧ idsAfter rid n ≤ n + 1 := by
  unfold idsAfter
  split
  · split <;> omega
  · omega

/-- One input's effect on the bookkeeping (specification of what can happen, used in the proofs). -/
inductive StepEffect (env : Ext σ H) (raw : Bytes) (s s' : Host σ) : Prop where
  /-- Nothing but the counter (and possibly the extension's own state). -/
  | quiet (h1 : s'.pending = s.pending) (h2 : s'.init = s.init) (h3 : s'.settings = s.settings)
      (h4 : s.ids ≤ s'.ids)
  /-- A non-error response. -/
  | response (resp : OutboundResponse) (body : Bytes) (hr : IsResponse raw resp body)
      (he : resp.tcp_header.isError = false)
      (h1 : s'.pending = s.pending.erase resp.tcp_header.request_id) (h2 : s'.init = s.init)
      (h4 : s.ids ≤ s'.ids)
  /-- An initialisation. -/
  | init (req : OutboundRequest) (body : Bytes) (hr : IsRequest raw req body)
      (ha : req.action = "internal:discovery/extensions") (i : Nat) (sreq : OutboundRequest)
      (response : OutboundResponse)
      (hi : i = idsAfter (some req.tcp_header.request_id) (s.ids + 2)) (h1 : s'.ids = i + 2)
      (hs : IsSettingsRequest sreq req.ctx req.features i)
      (h2 : s'.pending = (s.pending.set (i : Int) .settings).set ((i + 1 : Nat) : Int) (.registerRest sreq))
      (hr : IsInitResponse env response req (s.ids + 2))
      (h3 : s'.init = some response) (h4 : s'.settings = s.settings)

theorem onInput_effect (env : Ext σ H) (ch : Choice) (s : Host σ) (raw : Bytes) :
    StepEffect env raw s (onInput env ch s raw).1 := by
  rcases onInput_cases env ch s raw with ⟨req, body, hr⟩ | ⟨resp, body, hr⟩ | ⟨n, e, he⟩
  · rw [onInput_request hr]
    by_cases ha : req.action = "internal:discovery/extensions"
    · have e : handleRequest env ch { s with ids := s.ids + 2 } req body =
          handleInit env ch { s with ids := s.ids + 2 } req body := by
        unfold handleRequest; rw [if_pos ha]
      rw [e]
      cases hb : InitializeExtensionRequest.readFrom body with
      | error e =>
        have : handleInit env ch { s with ids := s.ids + 2 } req body = ({ s with ids := s.ids + 2 }, .error e) := by
          unfold handleInit; rw [hb]
        rw [this]
        exact .quiet rfl rfl rfl (by simp)
      | ok p =>
        obtain ⟨m, rest⟩ := p
        obtain ⟨response, sreq, rreq, i, hi, h1, h2, h3, h4⟩ :=
          handleInit_ok env ch { s with ids := s.ids + 2 } req hb
        rw [h4]
        exact .init req body hr ha i sreq response hi rfl h2 rfl h1 rfl rfl
    · obtain ⟨s1, e1, e2, e3, e4, ⟨e, he⟩ | ⟨w, hw⟩⟩ := handleRequest_sends env ch { s with ids := s.ids + 2 } req body ha
      · rw [he]
        exact .quiet e2 e3 e4 (by simp only at e1 ⊢; omega)
      · rw [hw, (sendReply_state ch s1 req w).1]
        have := idsAfter_ge (some req.tcp_header.request_id) s1.ids
        exact .quiet e2 e3 e4 (by simp only at e1 ⊢; omega)
  · rw [onInput_response hr]
    cases he : resp.tcp_header.isError with
    | true => exact .quiet rfl rfl rfl (by simp)
    | false =>
      simp only [Bool.false_eq_true, if_false]
      obtain ⟨d, hd⟩ := handleResponse_state env ch { s with ids := s.ids + 2 } resp body
      rw [hd]
      exact .response resp body hr he rfl rfl (by simp)
  · rw [he]
    exact .quiet rfl rfl rfl (by simp)

end Verif
