import Verif.Spec.Live
import Verif.Props.Pending
import Verif.Props.Extension
import Verif.Props.Requests
import Verif.Lemmas.Sample
/-!
# C123: routes registered while the host runs
-/

namespace Verif
open Py StreamInput StreamOutput

variable {σ H : Type}

/-- Responses are handled the same whatever the routes are. -/
theorem onInput_registry (e : Ext σ H) (r : Registry H) (ch : Choice) (s : Host σ) {raw : Bytes} {resp : OutboundResponse} {body : Bytes}
    (h : IsResponse raw resp body) : onInput { e with registry := r } ch s raw = onInput e ch s raw := by
  rw [onInput_response h, onInput_response h]
  rfl

/-- One input with some routes is, for the host's own state, an input or other activity with any other routes. -/
theorem onInput_evolves (e : Ext σ H) (r : Registry H) (ch : Choice) (s : Host σ) (raw : Bytes) (P : Bytes → Prop) (hp : P raw) :
    Evolves e P s (onInput { e with registry := r } ch s raw).1 := by
  have quiet : ∀ s' : Host σ, s'.pending = s.pending → s'.init = s.init → s'.settings = s.settings → s.ids ≤ s'.ids →
      Evolves e P s s' := by
    intro s' h1 h2 h3 h4
    have : s' = { s with ids := s'.ids, settings := s.settings, ext := s'.ext } := by
      cases s'; cases s
      simp only at h1 h2 h3 ⊢
      subst h1 h2 h3
      rfl
    rw [this]
    exact .other _ _ _ .refl h4
  rcases onInput_cases { e with registry := r } ch s raw with ⟨req, body, hr⟩ | ⟨resp, body, hr⟩ | ⟨n, x, he⟩
  · by_cases ha : req.action = "internal:discovery/extensions"
    · have e1 : ∀ e : Ext σ H, onInput e ch s raw = handleInit e ch { s with ids := s.ids + 2 } req body := by
        intro e; rw [onInput_request hr]; unfold handleRequest; rw [if_pos ha]
      cases hb : InitializeExtensionRequest.readFrom body with
      | error x =>
        rw [e1]
        unfold handleInit
        rw [hb]
        exact quiet _ rfl rfl rfl (by simp)
      | ok m =>
        obtain ⟨m, rest⟩ := m
        have : (onInput { e with registry := r } ch s raw).1 = (onInput e ch s raw).1 := by
          rw [e1, e1]
          obtain ⟨response, sreq, rreq, i, hi, h1, h2, h3, h4⟩ := handleInit_ok e ch { s with ids := s.ids + 2 } req hb
          obtain ⟨response', sreq', rreq', i', hi', h1', h2', h3', h4'⟩ :=
            handleInit_ok { e with registry := r } ch { s with ids := s.ids + 2 } req hb
          rw [h4, h4']
          subst hi hi'
          have k1 : response' = response := by
            unfold IsInitResponse at h1 h1'
            rw [h1] at h1'
            simp only [Prod.mk.injEq, Except.ok.injEq, and_true] at h1'
            exact h1'.symm
          have k2 : sreq' = sreq := by
            unfold IsSettingsRequest at h2 h2'
            rw [h2] at h2'
            simp only [Prod.mk.injEq, Except.ok.injEq, and_true] at h2'
            exact h2'.symm
          rw [k1, k2]
        rw [this]
        exact .input ch raw .refl hp
    · have hq := onInput_request (env := { e with registry := r }) (ch := ch) (s := s) hr
      rcases onInput_effect { e with registry := r } ch s raw with ⟨h1, h2, h3, h4⟩ | ⟨resp, body, q, _⟩ | ⟨req', body', q, ha', _⟩
      · exact quiet _ h1 h2 h3 h4
      · exact absurd q (hr.not_response)
      · rw [(hr.unique q).1] at ha; exact absurd ha' ha
  · rw [onInput_registry e r ch s hr]
    exact .input ch raw .refl hp
  · rw [he]
    exact quiet _ rfl rfl rfl (by simp)

theorem live_evolves (e : Ext σ H) (r : Registry H) (l : List (LiveAct σ H)) : ∀ (p : LiveHost σ H),
    Evolves { e with registry := r } (ArrivesIn l) p.host (p.acts e l).host := by
  induction l with
  | nil => exact fun p => .refl
  | cons a l ih =>
    intro p
    have h1 : Evolves { e with registry := r } (ArrivesIn (a :: l)) p.host (p.act e a).host := by
      cases a with
      | register h routes => exact .refl
      | other n d x => exact .other _ _ _ .refl (Nat.le_add_right _ _)
      | input ch raw =>
        exact onInput_evolves { e with registry := r } p.registry ch p.host raw (ArrivesIn (.input ch raw :: l)) ⟨ch, List.mem_cons_self⟩
    exact h1.trans ((ih (p.act e a)).mono fun raw ⟨ch, hm⟩ => ⟨ch, List.mem_cons_of_mem _ hm⟩)

/-- C123: whatever is registered and when, the host's own state goes the way that it can go with fixed routes, whichever these are:
what holds of all histories of a host with fixed routes holds in every history with registrations. -/
theorem C123_history (e : Ext σ H) (r : Registry H) (p : LiveHost σ H) (l : List (LiveAct σ H)) :
    Evolves { e with registry := r } (ArrivesIn l) p.host (p.acts e l).host ∧
    (Started p.host → Reachable { e with registry := r } (p.acts e l).host) :=
  ⟨live_evolves e r l p, fun h => ⟨p.host, h, (live_evolves e r l p).mono fun _ _ => trivial⟩⟩

/-- C123: at every moment the routes are those of the registrations made so far, in their order, and messages are handled with these. -/
theorem C123_routes (e : Ext σ H) (p : LiveHost σ H) (hp : p.Fresh) (l : List (LiveAct σ H)) (ch : Choice) (raw : Bytes) :
    (p.acts e l).registry = registerAll ⟨[], []⟩ (registrations l) ∧
    ((p.acts e l).input e ch raw).2 =
      (onInput { e with registry := registerAll ⟨[], []⟩ (registrations l) } ch (p.acts e l).host raw).2 := by
  have key : ∀ (l : List (LiveAct σ H)) (p : LiveHost σ H), (p.acts e l).registry = registerAll p.registry (registrations l) := by
    intro l
    induction l with
    | nil => intro p; rfl
    | cons a l ih =>
      intro p
      show ((p.act e a).acts e l).registry = _
      rw [ih]
      cases a <;> rfl
  have h := key l p
  rw [hp.2] at h
  refine ⟨h, ?_⟩
  rw [← h]
  rfl

theorem firstMatch_append {route : String} {d : Dict String H} {h : H} (hf : Registry.firstMatch route d = some h) (d' : Dict String H) :
    Registry.firstMatch route (d ++ d') = some h := by
  induction d with
  | nil => cases hf
  | cons kv d ih =>
    obtain ⟨k, h0⟩ := kv
    simp only [Registry.firstMatch, List.cons_append] at hf ⊢
    by_cases hk : fnmatch route k = true
    · rw [if_pos hk] at hf ⊢; exact hf
    · rw [if_neg hk] at hf ⊢; exact ih hf

theorem registerAll_adds (more : List (H × List NamedRoute)) : ∀ (reg : Registry H), reg.routes.WF →
    ∃ added : List (H × NamedRoute),
      (registerAll reg more).routes = reg.routes ++ added.map (fun x => (wildcard (Spec.routeKey x.2), x.1)) ∧
      (registerAll reg more).routes.WF ∧ ∀ x ∈ added, ∃ routes, (x.1, routes) ∈ more ∧ x.2 ∈ routes := by
  induction more with
  | nil => exact fun reg hw => ⟨[], by simp [registerAll], hw, fun x hx => by cases hx⟩
  | cons y more ih =>
    intro reg hw
    obtain ⟨acc, rej, e1, e2, -, e4, -, -⟩ := C31_register reg hw y.1 y.2
    obtain ⟨added, a1, a2, a3⟩ := ih (reg.register y.1 y.2).1 e4
    refine ⟨acc.map (fun r => (y.1, r)) ++ added, ?_, a2, ?_⟩
    · show (registerAll (reg.register y.1 y.2).1 more).routes = _
      rw [a1, e2]
      simp [List.map_map, Function.comp_def]
    · intro x hx
      rcases List.mem_append.1 hx with hx | hx
      · obtain ⟨r, hr, rfl⟩ := List.mem_map.1 hx
        exact ⟨y.2, List.mem_cons_self, by rw [e1]; exact List.mem_append_left _ hr⟩
      · obtain ⟨rs, b1, b2⟩ := a3 x hx
        exact ⟨rs, List.mem_cons_of_mem _ b1, b2⟩

/-- C123: a request that some handler would get still goes to this handler after any further registrations, unless one of these has a
route whose key is literally the method and path of the request; then, if no earlier route had that key, it goes to the handler that
registered this one. -/
theorem C123_stable (reg : Registry H) (hw : reg.routes.WF) (more : List (H × List NamedRoute)) (route : String) (h : H)
    (hd : reg.dispatch route = some h) :
    (registerAll reg more).dispatch route = some h ∨
    reg.routes.get? route = none ∧ ∃ h' routes r, (h', routes) ∈ more ∧ r ∈ routes ∧ wildcard (Spec.routeKey r) = route ∧
      (registerAll reg more).dispatch route = some h' := by
  obtain ⟨added, h1, h2, h3⟩ := registerAll_adds more reg hw
  unfold Registry.dispatch at hd ⊢
  cases hg : reg.routes.get? route with
  | some h0 =>
    rw [hg] at hd
    cases hd
    left
    rw [Dict.get?_of_mem h2 (k := route) (v := h) (by rw [h1]; exact List.mem_append_left _ (Dict.get?_mem hg))]
  | none =>
    rw [hg] at hd
    dsimp only at hd
    cases hg' : (registerAll reg more).routes.get? route with
    | none =>
      left
      dsimp only
      rw [h1]
      exact firstMatch_append hd _
    | some h' =>
      right
      refine ⟨rfl, h', ?_⟩
      have hm := Dict.get?_mem hg'
      rw [h1] at hm
      rcases List.mem_append.1 hm with hm | hm
      · exact absurd (List.mem_map.2 ⟨_, hm, rfl⟩) (Dict.get?_eq_none.1 hg)
      · obtain ⟨x, hx, hxe⟩ := List.mem_map.1 hm
        obtain ⟨rs, b1, b2⟩ := h3 x hx
        cases hxe
        exact ⟨rs, x.2, b1, b2, rfl, rfl⟩

/-- C123: a REST request that comes after any history is answered with what the handler returns that the registrations made so far give
for its method and path. -/
theorem C123_rest (e : Ext σ H) (p : LiveHost σ H) (hp : p.Fresh) (l : List (LiveAct σ H)) (ch : Choice) {frame : Bytes}
    {ctx : ThreadContext} {f : List String} {id : Int} {hs cp : Bool} {r : ExtensionRestRequest} {m : RestMethod} {hd : H} {x : σ}
    {resp : ExtensionRestResponse}
    (h : RequestFrame frame ctx f r.writeTo "internal:extensions/restexecuteonextensiontaction" id hs cp)
    (hr : RequestOK r) (hm : r.method = some m)
    (hroute : (registerAll ⟨[], []⟩ (registrations l)).dispatch (m.name ++ " " ++ r.path) = some hd)
    (hrun : e.run hd (p.acts e l).host.ext { r with consumed_params := [], content_consumed := false } = (x, .ok resp))
    (hresp : ResponseOK resp)
    (hfits : 17 + ctx.size + (executeResponse ch resp).writeTo.out.length < 2 ^ 31) (trailing : Bytes) :
    ∃ out body d, ((p.acts e l).input e ch (frame ++ trailing)).2 = .ok (some out) ∧
      ReplyIs out id hs cp ctx body ∧ RestExecuteOnExtensionResponse.readFrom body = .ok (d, []) ∧
      d.status = resp.status ∧ d.content_type = resp.content_type ∧ d.content = resp.content ∧
      d.headers = resp.headers ∧ d.consumed_params.Perm resp.consumed_params ∧
      d.content_consumed = resp.content_consumed := by
  obtain ⟨out, body, d, h1, h2⟩ := C38_rest { e with registry := registerAll ⟨[], []⟩ (registrations l) } ch (p.acts e l).host h hr hm
    hroute hrun hresp hfits trailing
  refine ⟨out, body, d, ?_, h2⟩
  rw [(C123_routes e p hp l ch _).2, h1]

/-- C123: an initialise request that comes after any history is answered by announcing the routes registered so far; and the
initialisation is completed whatever is registered while it is in progress. -/
theorem C123_sequence (e : Ext σ H) (p : LiveHost σ H) (hp : p.Fresh) (l : List (LiveAct σ H)) {frame : Bytes} {ctx : ThreadContext}
    {f : List String} {m : InitializeExtensionRequest} {r : Int} {hsk cp : Bool}
    (hframe : RequestFrame frame ctx f m.writeTo "internal:discovery/extensions" r hsk cp)
    (hm1 : TaskIdOK m.parent_task_id) (hm2 : NodeOK m.source_node) (hm3 : ExtensionNodeOK m.extension)
    (hname : StrOK e.name) (hifs : StrsOK e.interfaces)
    (hids : (p.acts e l).host.ids + 4 < 2 ^ 63)
    (hroom : ctx.size + (writeStringArray f).out.length +
      (RegisterRestActionsRequest.new e.name (registerAll ⟨[], []⟩ (registrations l)).named_routes []).writeTo.out.length +
      (InitializeExtensionResponse.writeTo ⟨e.name, e.interfaces⟩).out.length < 2 ^ 31 - 1000)
    (ch1 : Choice) (trailing1 : Bytes) :
    ∃ (a b : Int) (p1 : LiveHost σ H) (out1 body1 : Bytes) (q1 : OutboundRequest) (m1 : RegisterRestActionsRequest),
      a ≠ b ∧ (p.acts e l).input e ch1 (frame ++ trailing1) = (p1, .ok (some out1)) ∧ IsRequest out1 q1 body1 ∧
      q1.action = "internal:discovery/registerrestactions" ∧ q1.tcp_header.request_id = b ∧
      RegisterRestActionsRequest.readFrom body1 = .ok (m1, []) ∧ m1.rra.identity = some { uniqueId := e.name } ∧
      m1.rra.restActions = (registerAll ⟨[], []⟩ (registrations l)).named_routes ∧
    ∀ (l2 : List (LiveAct σ H)), (∀ raw, ArrivesIn l2 raw → OtherTraffic a b raw) → ∀ (ack : Bytes),
      ResponseFrame ack (AcknowledgedResponse.writeTo ⟨true⟩) b → ∀ (ch2 : Choice) (trailing2 : Bytes),
    ∃ (p3 : LiveHost σ H) (out2 body2 : Bytes) (q2 : OutboundRequest),
      (p1.acts e l2).input e ch2 (ack ++ trailing2) = (p3, .ok (some out2)) ∧ IsRequest out2 q2 body2 ∧
      q2.action = "internal:discovery/enviornmentsettings" ∧ q2.tcp_header.request_id = a ∧
    ∀ (l3 : List (LiveAct σ H)), (∀ raw, ArrivesIn l3 raw → OtherTraffic a b raw) → ∀ (sets : Bytes) (d : Dict String PyVal),
      SettingsOK e.depth d → ResponseFrame sets (Settings.writeTo d) a → ∀ (ch3 : Choice) (trailing3 : Bytes),
    ∃ (p5 : LiveHost σ H) (out3 body3 : Bytes),
      (p3.acts e l3).input e ch3 (sets ++ trailing3) = (p5, .ok (some out3)) ∧
      ReplyIs out3 r hsk cp ctx body3 ∧
      InitializeExtensionResponse.readFrom body3 = .ok (⟨e.name, e.interfaces⟩, []) := by
  have hreg := (C123_routes e p hp l ch1 []).1
  obtain ⟨a, b, s1, out1, body1, q1, m1, a1, a2, a3, a4, a5, -, -, a8, a9, a10, -, a12⟩ :=
    C44_sequence { e with registry := registerAll ⟨[], []⟩ (registrations l) } (p.acts e l).host
      ((C123_history e _ p l).2 hp.1) hframe hm1 hm2 hm3 hname hifs hids hroom ch1 trailing1
  refine ⟨a, b, { p.acts e l with host := s1 }, out1, body1, q1, m1, a1, ?_, a3, a4, a5, a8, a9, a10, ?_⟩
  · have hx : ({ e with registry := (p.acts e l).registry } : Ext σ H) = { e with registry := registerAll ⟨[], []⟩ (registrations l) } := by
      rw [hreg]
    unfold LiveHost.input LiveHost.env
    rw [hx, a2]
  intro l2 h2 ack hack ch2 trailing2
  obtain ⟨s3, out2, body2, q2, m2, b1, b2, b3, b4, -, -, -, -, b9⟩ :=
    a12 _ ((C123_history e (registerAll ⟨[], []⟩ (registrations l)) { p.acts e l with host := s1 } l2).1.mono h2) ack hack ch2 trailing2
  refine ⟨{ ({ p.acts e l with host := s1 } : LiveHost σ H).acts e l2 with host := s3 }, out2, body2, q2, ?_, b2, b3, b4, ?_⟩
  · obtain ⟨-, resp, hr, -⟩ := response_frame_parses hack trailing2
    unfold LiveHost.input LiveHost.env
    rw [onInput_registry e _ ch2 _ hr]
    rw [onInput_registry e _ ch2 _ hr] at b1
    rw [b1]
  intro l3 h3 sets d hd hsets ch3 trailing3
  obtain ⟨s5, out3, body3, c1, c2, c3, -⟩ :=
    b9 _ ((C123_history e (registerAll ⟨[], []⟩ (registrations l))
      { ({ p.acts e l with host := s1 } : LiveHost σ H).acts e l2 with host := s3 } l3).1.mono h3) sets d hd hsets ch3 trailing3
  refine ⟨{ ({ ({ p.acts e l with host := s1 } : LiveHost σ H).acts e l2 with host := s3 } : LiveHost σ H).acts e l3 with host := s5 },
    out3, body3, ?_, c2, c3⟩
  obtain ⟨-, resp, hr, -⟩ := response_frame_parses hsets trailing3
  unfold LiveHost.input LiveHost.env
  rw [onInput_registry e _ ch3 _ hr]
  rw [onInput_registry e _ ch3 _ hr] at c1
  rw [c1]

/-! ## Cases that meet the hypotheses -/

/-- A REST handler is registered, a request for its route arrives, then another handler is registered. -/
def sampleLive : LiveHost Nat Bool := { host := sampleHost }
def sampleLiveActs : List (LiveAct Nat Bool) :=
  [.register true [⟨.GET, "/hello/{name}", "hi"⟩], .input sampleChoice sampleRestFrame, .register false [⟨.PUT, "/hello/{name}", "put"⟩]]

theorem sampleLive_fresh : sampleLive.Fresh := ⟨sampleHost_started, rfl⟩

example := C123_history sampleExt ⟨[], []⟩ sampleLive sampleLiveActs
example : (registerAll ⟨[], []⟩ (registrations sampleLiveActs)).routes = [("GET /hello/*", true), ("PUT /hello/*", false)] ∧
    (registerAll ⟨[], []⟩ (registrations sampleLiveActs)).named_routes = ["GET /hello/{name} hi", "PUT /hello/{name} put"] := by decide +kernel
example := C123_routes sampleExt sampleLive sampleLive_fresh sampleLiveActs sampleChoice sampleInitFrame
example := C123_stable (⟨[("GET /*", 1)], ["GET /{x} x"]⟩ : Registry Nat) (by decide +kernel) [(2, [⟨.GET, "/a", "a"⟩])] "GET /a" 1
  (by decide +kernel)
example : (registerAll (⟨[("GET /*", 1)], ["GET /{x} x"]⟩ : Registry Nat) [(2, [⟨.GET, "/a", "a"⟩])]).dispatch "GET /a" = some 2 ∧
    (registerAll (⟨[("GET /*", 1)], ["GET /{x} x"]⟩ : Registry Nat) [(2, [⟨.GET, "/a*", "a"⟩])]).dispatch "GET /a" = some 1 := by
  decide +kernel
example := C123_rest sampleExt sampleLive sampleLive_fresh sampleLiveActs sampleChoice sampleRestFrame_ok sampleRest_ok (m := .GET) rfl
  (hd := true) (by decide +kernel) rfl
example := C123_sequence sampleExt sampleLive sampleLive_fresh sampleLiveActs sampleInitFrame_ok (by decide +kernel)
  (by decide +kernel) (by decide +kernel) (by decide +kernel) (by decide +kernel) (by decide +kernel) (by decide +kernel)
  sampleChoice [1, 2]

end Verif
