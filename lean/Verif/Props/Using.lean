import Verif.Spec.Using
import Verif.Props.Live
import Verif.Props.Environment
/-!
# C126: REST handlers that use the SDK themselves
-/

namespace Verif
open Py StreamInput StreamOutput Spec

variable {σ H : Type}

theorem inputUsing_rest (use : Use σ H) (e : Ext σ H) (p : LiveHost σ H) (ch : Choice) {raw : Bytes} {req : OutboundRequest} {body : Bytes}
    (h : IsRequest raw req body) (ha : req.action = "internal:extensions/restexecuteonextensiontaction") :
    p.inputUsing use e ch raw = LiveHost.restUsing use { p with host := { p.host with ids := p.host.ids + 2 } } ch req body := by
  obtain ⟨bl, hd, rest, h1, h2, h3⟩ := (parsesAsRequest_iff (p.host.ids + 1)).1 h.1
  obtain ⟨x, _⟩ := request_readFrom_ok h3
  have hq := h.2
  rw [x] at hq
  have e0 : (TcpHeader.new (.int Version.CURRENT) 0 none p.host.ids).2 = p.host.ids + 1 := rfl
  unfold LiveHost.inputUsing
  simp only [e0, h2, hq, if_true, h1, h3, ha]

theorem inputUsing_other (use : Use σ H) (e : Ext σ H) (p : LiveHost σ H) (ch : Choice) (raw : Bytes) (hn : ¬ AsksRest raw) :
    p.inputUsing use e ch raw = p.input e ch raw := by
  have e0 : (TcpHeader.new (.int Version.CURRENT) 0 none p.host.ids).2 = p.host.ids + 1 := rfl
  unfold LiveHost.inputUsing LiveHost.input onInput
  simp only [e0]
  cases hh : TcpHeader.readFrom raw with
  | error x => rfl
  | ok q =>
    obtain ⟨h, input⟩ := q
    dsimp only
    cases hq : h.isRequest with
    | true =>
      obtain ⟨bl, hb, _⟩ := blankRequest_new (p.host.ids + 1)
      simp only [if_true, hb]
      cases hr : bl.readFrom (some h) input with
      | error x => rfl
      | ok q =>
        obtain ⟨req, body⟩ := q
        dsimp only
        have hp := (parsesAsRequest_iff (p.host.ids + 1)).2 ⟨bl, h, input, hb, hh, hr⟩
        have hr : IsRequest raw req body := ⟨hp, by rw [(request_readFrom_ok hr).1]; exact hq⟩
        rw [if_neg (fun ha => hn ⟨req, body, hr, ha⟩)]
    | false =>
      obtain ⟨bl, hb, _⟩ := blankResponse_new (p.host.ids + 1)
      simp only [Bool.false_eq_true, if_false, hb]
      cases hr : bl.readFrom (some h) input with
      | error x => rfl
      | ok q =>
        obtain ⟨resp, body⟩ := q
        dsimp only
        by_cases he : resp.tcp_header.isError = true
        · rw [if_pos he, if_pos he]
        · rw [if_neg he, if_neg he]

/-- How the state can change when the REST request handler ran. -/
theorem restUsing_state (use : Use σ H) (p : LiveHost σ H) (ch : Choice) (req : OutboundRequest) (body : Bytes) :
    (LiveHost.restUsing use p ch req body).1 = p ∨
    ∃ h r n i res, use h p.host.ids ⟨p.host.settings, p.registry, p.host.ext⟩ r = ((n, i), res) ∧ ∃ m, p.host.ids + n ≤ m ∧
      (LiveHost.restUsing use p ch req body).1 =
        ⟨{ p.host with ids := m, settings := i.settings, ext := i.ext }, i.registry⟩ := by
  unfold LiveHost.restUsing
  cases hb : ExtensionRestRequest.readFrom {} body with
  | error x => exact .inl rfl
  | ok q =>
    obtain ⟨r, rest⟩ := q
    dsimp only
    cases hm : r.method with
    | none => exact .inl rfl
    | some m =>
      dsimp only
      cases hd : p.registry.dispatch (m.name ++ " " ++ r.path) with
      | none => exact .inl rfl
      | some h =>
        right
        dsimp only
        rcases hu : use h p.host.ids ⟨p.host.settings, p.registry, p.host.ext⟩ r with ⟨⟨n, i⟩, res⟩
        cases res with
        | error x => exact ⟨h, r, n, i, _, hu, _, Nat.le_refl _, rfl⟩
        | ok response =>
          refine ⟨h, r, n, i, _, hu,
            idsAfter (some req.tcp_header.request_id) (p.host.ids + n), (idsAfter_ge _ _).1, ?_⟩
          dsimp only
          rcases hs : sendReply ch { p.host with ids := p.host.ids + n, settings := i.settings, ext := i.ext } req
            (executeResponse ch response).writeTo with ⟨s, out⟩
          have := (sendReply_state ch { p.host with ids := p.host.ids + n, settings := i.settings, ext := i.ext } req
            (executeResponse ch response).writeTo).1
          rw [hs] at this
          dsimp only at this ⊢
          rw [this]

/-- C126: with handlers that use nothing but their own state this is the host of the other theorems. -/
theorem C126_plain (e : Ext σ H) (p : LiveHost σ H) (ch : Choice) (raw : Bytes) :
    p.inputUsing (usesNothing e.run) e ch raw = p.input e ch raw := by
  obtain ⟨name, interfaces, registry, run, depth⟩ := e
  by_cases hn : AsksRest raw
  · obtain ⟨req, body, h, ha⟩ := hn
    rw [inputUsing_rest _ _ p ch h ha]
    unfold LiveHost.input
    rw [onInput_request h]
    unfold handleRequest
    rw [if_neg (by rw [ha]; decide +kernel), if_pos ha]
    unfold LiveHost.restUsing handleRest Registry.handle LiveHost.env usesNothing
    cases hb : ExtensionRestRequest.readFrom {} body with
    | error x => rfl
    | ok q =>
      obtain ⟨r, rest⟩ := q
      dsimp only
      cases hm : r.method with
      | none => rfl
      | some m =>
        dsimp only
        cases hd : p.registry.dispatch (m.name ++ " " ++ r.path) with
        | none => rfl
        | some h =>
          dsimp only
          generalize run h p.host.ext r = u
          obtain ⟨x, res⟩ := u
          cases res <;> rfl
  · exact inputUsing_other _ _ p ch raw hn

theorem using_evolves (use : Use σ H) (e : Ext σ H) (r : Registry H) (l : List (LiveAct σ H)) : ∀ (p : LiveHost σ H),
    Evolves { e with registry := r } (ArrivesIn l) p.host (p.actsUsing use e l).host := by
  induction l with
  | nil => exact fun p => .refl
  | cons a l ih =>
    intro p
    have h1 : Evolves { e with registry := r } (ArrivesIn (a :: l)) p.host (p.actUsing use e a).host := by
      cases a with
      | register h routes => exact .refl
      | other n d x => exact .other _ _ _ .refl (Nat.le_add_right _ _)
      | input ch raw =>
        show Evolves _ _ p.host (p.inputUsing use e ch raw).1.host
        by_cases hn : AsksRest raw
        · obtain ⟨req, body, h, ha⟩ := hn
          rw [inputUsing_rest _ e p ch h ha]
          rcases restUsing_state use { p with host := { p.host with ids := p.host.ids + 2 } } ch req body with
            h | ⟨h, r, n, i, res, -, m, hm, h⟩
          · rw [h]
            exact Evolves.other (s' := p.host) (p.host.ids + 2) p.host.settings p.host.ext .refl (by simp)
          · rw [h]
            exact Evolves.other (s' := p.host) m i.settings i.ext .refl (by simp only at hm ⊢; omega)
        · rw [inputUsing_other _ e p ch raw hn]
          exact onInput_evolves { e with registry := r } p.registry ch p.host raw (ArrivesIn (.input ch raw :: l)) ⟨ch, List.mem_cons_self⟩
    exact h1.trans ((ih (p.actUsing use e a)).mono fun raw ⟨ch, hm⟩ => ⟨ch, List.mem_cons_of_mem _ hm⟩)

/-- C126: whatever handlers do with the settings, the ids, the routes and their own state, the host's own state goes the way it can go
with handlers that use nothing: what holds of all histories of a host holds with such handlers too. -/
theorem C126_history (use : Use σ H) (e : Ext σ H) (r : Registry H) (p : LiveHost σ H) (l : List (LiveAct σ H)) :
    Evolves { e with registry := r } (ArrivesIn l) p.host (p.actsUsing use e l).host ∧
    (Started p.host → Reachable { e with registry := r } (p.actsUsing use e l).host) :=
  ⟨using_evolves use e r l p, fun h => ⟨p.host, h, (using_evolves use e r l p).mono fun _ _ => trivial⟩⟩

/-- What happens to a well-formed REST request that has a handler. -/
theorem restUsing_call (use : Use σ H) (e : Ext σ H) (p : LiveHost σ H) (ch : Choice) {raw trailing : Bytes} {req : OutboundRequest}
    {r : ExtensionRestRequest} {m : RestMethod} {hd : H} (q1 : IsRequest raw req (r.writeTo.out ++ trailing))
    (q2 : req.action = "internal:extensions/restexecuteonextensiontaction")
    (hr : RequestOK r) (hm : r.method = some m) (hroute : p.registry.dispatch (m.name ++ " " ++ r.path) = some hd) :
    p.inputUsing use e ch raw =
      match use hd (p.host.ids + 2) ⟨p.host.settings, p.registry, p.host.ext⟩ { r with consumed_params := [], content_consumed := false } with
      | ((n, i), .error x) => (⟨{ p.host with ids := p.host.ids + 2 + n, settings := i.settings, ext := i.ext }, i.registry⟩, .error x)
      | ((n, i), .ok response) =>
        (⟨(sendReply ch { p.host with ids := p.host.ids + 2 + n, settings := i.settings, ext := i.ext } req
            (executeResponse ch response).writeTo).1, i.registry⟩,
          (sendReply ch { p.host with ids := p.host.ids + 2 + n, settings := i.settings, ext := i.ext } req
            (executeResponse ch response).writeTo).2) := by
  rw [inputUsing_rest use e p ch q1 q2]
  unfold LiveHost.restUsing
  have hread := (rt_restRequest hr {}).2 trailing
  have he : (if r.media_type = "" then ({} : ExtensionRestRequest).media_type else r.media_type) = r.media_type := by
    split
    · next h => rw [h]
    · rfl
  rw [hread]
  simp only [hm, he, hroute]
  generalize use hd _ _ _ = u
  obtain ⟨⟨n, i⟩, res⟩ := u
  cases res <;> rfl

/-- C126: a REST request that comes after any history is handed, as the peer encoded it, to the handler that the routes of that moment give
for it, together with the settings, the routes, the state and the counter of that moment; if it returns a response, this is the answer, as
without such use, and everything the handler changed stays changed. -/
theorem C126_rest (use : Use σ H) (e : Ext σ H) (p : LiveHost σ H) (ch : Choice) {frame : Bytes}
    {ctx : ThreadContext} {f : List String} {id : Int} {hs cp : Bool} {r : ExtensionRestRequest} {m : RestMethod} {hd : H} {n : Nat}
    {i : Inside σ H} {resp : ExtensionRestResponse}
    (h : RequestFrame frame ctx f r.writeTo "internal:extensions/restexecuteonextensiontaction" id hs cp)
    (hr : RequestOK r) (hm : r.method = some m) (hroute : p.registry.dispatch (m.name ++ " " ++ r.path) = some hd)
    (hrun : use hd (p.host.ids + 2) ⟨p.host.settings, p.registry, p.host.ext⟩ { r with consumed_params := [], content_consumed := false } =
      ((n, i), .ok resp))
    (hresp : ResponseOK resp)
    (hfits : 17 + ctx.size + (executeResponse ch resp).writeTo.out.length < 2 ^ 31) (trailing : Bytes) :
    ∃ out body d, p.inputUsing use e ch (frame ++ trailing) =
        (⟨{ p.host with ids := p.host.ids + 2 + n, settings := i.settings, ext := i.ext }, i.registry⟩, .ok (some out)) ∧
      ReplyIs out id hs cp ctx body ∧ RestExecuteOnExtensionResponse.readFrom body = .ok (d, []) ∧
      d.status = resp.status ∧ d.content_type = resp.content_type ∧ d.content = resp.content ∧
      d.headers = resp.headers ∧ d.consumed_params.Perm resp.consumed_params ∧
      d.content_consumed = resp.content_consumed := by
  obtain ⟨_, _, req, q1, q2, q3, q4, q5, q6, q7, q8, _, q10⟩ := frame_parses h trailing
  have hok : ExecuteOK (executeResponse ch resp) := by
    refine ⟨hresp.status, hresp.content, hresp.content_type, hresp.headers, ?_, ?_⟩
    · show (ch.ho.order resp.consumed_params).length ≤ _
      rw [(ch.ho.perm _).length_eq]; exact hresp.params.1
    · intro y hy
      exact hresp.params.2 y ((ch.ho.perm _).mem_iff.1 hy)
  have hrt := rt_execute hok
  obtain ⟨out, o1, o2⟩ := frame_reply ch { p.host with ids := p.host.ids + 2 + n, settings := i.settings, ext := i.ext }
    q2 q3 q4 q5 q6 q7 hrt.1 hfits
  refine ⟨out, _, _, ?_, o2, by simpa using hrt.2 [], rfl, rfl, rfl, rfl, ch.ho.perm _, rfl⟩
  rw [restUsing_call use e p ch q1 q10 hr hm hroute, hrun]
  dsimp only
  rw [o1]

/-- C126: a handler that raises: nothing is answered, its exception leaves `on_input`, and what it changed before stays changed. -/
theorem C126_raises (use : Use σ H) (e : Ext σ H) (p : LiveHost σ H) (ch : Choice) {frame : Bytes}
    {ctx : ThreadContext} {f : List String} {id : Int} {hs cp : Bool} {r : ExtensionRestRequest} {m : RestMethod} {hd : H} {n : Nat}
    {i : Inside σ H} {x : Err}
    (h : RequestFrame frame ctx f r.writeTo "internal:extensions/restexecuteonextensiontaction" id hs cp)
    (hr : RequestOK r) (hm : r.method = some m) (hroute : p.registry.dispatch (m.name ++ " " ++ r.path) = some hd)
    (hrun : use hd (p.host.ids + 2) ⟨p.host.settings, p.registry, p.host.ext⟩ { r with consumed_params := [], content_consumed := false } =
      ((n, i), .error x)) (trailing : Bytes) :
    p.inputUsing use e ch (frame ++ trailing) =
      (⟨{ p.host with ids := p.host.ids + 2 + n, settings := i.settings, ext := i.ext }, i.registry⟩, .error x) := by
  obtain ⟨_, _, req, q1, _, _, _, _, _, _, _, _, q10⟩ := frame_parses h trailing
  rw [restUsing_call use e p ch q1 q10 hr hm hroute, hrun]

/-- C126: nothing but a REST request can run a handler. -/
theorem C126_only_rest (use use' : Use σ H) (e : Ext σ H) (p : LiveHost σ H) (ch : Choice) (raw : Bytes) (h : ¬ AsksRest raw) :
    p.inputUsing use e ch raw = p.inputUsing use' e ch raw ∧ (p.inputUsing use e ch raw).1.registry = p.registry := by
  rw [inputUsing_other _ e p ch raw h, inputUsing_other _ e p ch raw h]
  exact ⟨rfl, rfl⟩

/-- C126: an id that was drawn while a REST request was handled - by the handler for a message of its own, say - is never one that the host
waits for: an answer that comes in with it is ignored, whatever happens in between. -/
theorem C126_ids (use : Use σ H) (e : Ext σ H) (r : Registry H) (p : LiveHost σ H) (hp : Reachable { e with registry := r } p.host)
    (ch : Choice) {raw : Bytes} (hraw : AsksRest raw) (k : Nat) (h1 : p.host.ids ≤ k)
    (h2 : k < (p.inputUsing use e ch raw).1.host.ids) (l : List (LiveAct σ H)) :
    ¬ Outstanding ((p.inputUsing use e ch raw).1.actsUsing use e l).host k ∧
    ∀ {raw' : Bytes} {resp : OutboundResponse} {body : Bytes}, IsResponse raw' resp body → resp.tcp_header.request_id = k → ∀ ch',
      (((p.inputUsing use e ch raw).1.actsUsing use e l).inputUsing use e ch' raw').2 = .ok none := by
  have hI := hp.inv
  have hdead : (k : Int) < (p.inputUsing use e ch raw).1.host.ids ∧ ¬ Outstanding (p.inputUsing use e ch raw).1.host k := by
    refine ⟨by omega, fun ho => ?_⟩
    have : (p.inputUsing use e ch raw).1.host.pending = p.host.pending := by
      obtain ⟨req, body, h, ha⟩ := hraw
      rw [inputUsing_rest use e p ch h ha]
      rcases restUsing_state use { p with host := { p.host with ids := p.host.ids + 2 } } ch req body with
        h | ⟨h, r, n, i, res, -, m, hm, h⟩ <;> rw [h]
    unfold Outstanding at ho
    rw [this] at ho
    have := (hI.range _ ho).2
    omega
  have hI1 : Inv { e with registry := r } (p.inputUsing use e ch raw).1.host :=
    hI.evolves (using_evolves use e r [.input ch raw] p)
  have he := using_evolves use e r l (p.inputUsing use e ch raw).1
  generalize (p.inputUsing use e ch raw).1 = p1 at *
  have hdead2 : (k : Int) < (p1.actsUsing use e l).host.ids ∧ ¬ Outstanding (p1.actsUsing use e l).host k := by
    generalize (p1.actsUsing use e l).host = s2 at *
    induction he with
    | refl => exact hdead
    | input ch raw e _ ih => exact dead_onInput (hI1.evolves e) ih ch raw
    | other n d x _ hn ih => exact ⟨by have := ih.1; simp only; omega, ih.2⟩
  refine ⟨hdead2.2, fun {raw' resp body} hr hid ch' => ?_⟩
  rw [inputUsing_other _ _ _ _ _ (fun ⟨_, _, q, _⟩ => q.not_response hr)]
  unfold LiveHost.input
  rw [C48_unsolicited _ ch' _ hr (by rw [hid]; exact hdead2.2)]

/-- C126: an input changes the settings only if it is the answer to a request of the host for them, of which the decodable entries are
taken over, or a REST request whose handler changed them. -/
theorem C126_settings_step (use : Use σ H) (e : Ext σ H) (p : LiveHost σ H) (ch : Choice) (raw : Bytes) :
    (p.inputUsing use e ch raw).1.host.settings = p.host.settings ∨
    (∃ id l, p.host.pending.get? id = some .settings ∧ BringsSettings e.depth raw id l ∧
      ∀ k, (p.inputUsing use e ch raw).1.host.settings.get? k = (lastValue l k).or (p.host.settings.get? k)) ∨
    (AsksRest raw ∧ ∃ h c r n i res, use h c ⟨p.host.settings, p.registry, p.host.ext⟩ r = ((n, i), res) ∧
      (p.inputUsing use e ch raw).1.host.settings = i.settings) := by
  by_cases hn : AsksRest raw
  · have hn' := hn
    obtain ⟨req, body, h, ha⟩ := hn
    rw [inputUsing_rest use e p ch h ha]
    rcases restUsing_state use { p with host := { p.host with ids := p.host.ids + 2 } } ch req body with
      h | ⟨h, r, n, i, res, hu, m, hm, h⟩
    · rw [h]; exact .inl rfl
    · rw [h]; exact .inr (.inr ⟨hn', _, _, _, _, _, _, hu, rfl⟩)
  · rw [inputUsing_other _ e p ch raw hn]
    rcases C85_step (p.env e) ch p.host raw with h | ⟨id, l, h1, h2, h3⟩
    · exact .inl h
    · exact .inr (.inl ⟨id, l, h1, h2, h3⟩)

/-- C126: with handlers that leave the settings alone, and nothing else that fills them, the settings that a handler is given are those that
the answers received so far brought, the later over the earlier. -/
theorem C126_settings (use : Use σ H) (hk : KeepsSettings use) (e : Ext σ H) (l : List (LiveAct σ H)) :
    ∀ (p : LiveHost σ H), (∀ n d x, LiveAct.other n d x ∉ l) →
    ∃ used : List (Bytes × List (String × PyVal)), (used.map (·.1)).Sublist (arrivals l) ∧
      (∀ u ∈ used, ∃ id, BringsSettings e.depth u.1 id u.2) ∧
      ∀ k, (p.actsUsing use e l).host.settings.get? k = (lastValue (used.map (·.2)).flatten k).or (p.host.settings.get? k) := by
  induction l with
  | nil => exact fun p _ => ⟨[], .slnil, by simp, fun k => rfl⟩
  | cons a l ih =>
    intro p hl
    obtain ⟨used, h1, h2, h3⟩ := ih (p.actUsing use e a) fun n d x h => hl n d x (List.mem_cons_of_mem _ h)
    cases a with
    | register h routes => exact ⟨used, h1, h2, h3⟩
    | other n d x => exact absurd List.mem_cons_self (hl n d x)
    | input ch raw =>
      have same : (p.inputUsing use e ch raw).1.host.settings = p.host.settings → _ := fun h =>
        (⟨used, h1.trans (List.sublist_cons_self _ _), h2, fun k => by rw [← h]; exact h3 k⟩ :
          ∃ used : List (Bytes × List (String × PyVal)), (used.map (·.1)).Sublist (arrivals (.input ch raw :: l)) ∧
            (∀ u ∈ used, ∃ id, BringsSettings e.depth u.1 id u.2) ∧
            ∀ k, (p.actsUsing use e (.input ch raw :: l)).host.settings.get? k =
              (lastValue (used.map (·.2)).flatten k).or (p.host.settings.get? k))
      rcases C126_settings_step use e p ch raw with h | ⟨id, m, -, hb, hm⟩ | ⟨-, h, c, r, n, i, res, hu, hs⟩
      · exact same h
      · refine ⟨(raw, m) :: used, h1.cons_cons _, ?_, fun k => ?_⟩
        · intro u hu
          rcases List.mem_cons.1 hu with rfl | hu
          · exact ⟨id, hb⟩
          · exact h2 u hu
        · have h3 := h3 k
          have hm := hm k
          rw [show (p.actsUsing use e (.input ch raw :: l)) = (p.actUsing use e (.input ch raw)).actsUsing use e l from rfl, h3,
            show (p.actUsing use e (.input ch raw)).host.settings.get? k = _ from hm, List.map_cons, List.flatten_cons, lastValue_append]
          cases lastValue (used.map (·.2)).flatten k <;> rfl
      · refine same ?_
        have := hk h c ⟨p.host.settings, p.registry, p.host.ext⟩ r
        rw [hu] at this
        rw [hs]; exact this

/-- C126: an initialise request that comes after any history is answered by announcing the routes of that moment; and the initialisation is
completed whatever handlers do while it is in progress. -/
theorem C126_sequence (use : Use σ H) (e : Ext σ H) (p : LiveHost σ H) (hp : Started p.host) (l : List (LiveAct σ H)) {frame : Bytes}
    {ctx : ThreadContext} {f : List String} {m : InitializeExtensionRequest} {r : Int} {hsk cp : Bool}
    (hframe : RequestFrame frame ctx f m.writeTo "internal:discovery/extensions" r hsk cp)
    (hm1 : TaskIdOK m.parent_task_id) (hm2 : NodeOK m.source_node) (hm3 : ExtensionNodeOK m.extension)
    (hname : StrOK e.name) (hifs : StrsOK e.interfaces)
    (hids : (p.actsUsing use e l).host.ids + 4 < 2 ^ 63)
    (hroom : ctx.size + (writeStringArray f).out.length +
      (RegisterRestActionsRequest.new e.name (p.actsUsing use e l).registry.named_routes []).writeTo.out.length +
      (InitializeExtensionResponse.writeTo ⟨e.name, e.interfaces⟩).out.length < 2 ^ 31 - 1000)
    (ch1 : Choice) (trailing1 : Bytes) :
    ∃ (a b : Int) (p1 : LiveHost σ H) (out1 body1 : Bytes) (q1 : OutboundRequest) (m1 : RegisterRestActionsRequest),
      a ≠ b ∧ (p.actsUsing use e l).inputUsing use e ch1 (frame ++ trailing1) = (p1, .ok (some out1)) ∧ IsRequest out1 q1 body1 ∧
      q1.action = "internal:discovery/registerrestactions" ∧ q1.tcp_header.request_id = b ∧
      RegisterRestActionsRequest.readFrom body1 = .ok (m1, []) ∧ m1.rra.identity = some { uniqueId := e.name } ∧
      m1.rra.restActions = (p.actsUsing use e l).registry.named_routes ∧
    ∀ (l2 : List (LiveAct σ H)), (∀ raw, ArrivesIn l2 raw → OtherTraffic a b raw) → ∀ (ack : Bytes),
      ResponseFrame ack (AcknowledgedResponse.writeTo ⟨true⟩) b → ∀ (ch2 : Choice) (trailing2 : Bytes),
    ∃ (p3 : LiveHost σ H) (out2 body2 : Bytes) (q2 : OutboundRequest),
      (p1.actsUsing use e l2).inputUsing use e ch2 (ack ++ trailing2) = (p3, .ok (some out2)) ∧ IsRequest out2 q2 body2 ∧
      q2.action = "internal:discovery/enviornmentsettings" ∧ q2.tcp_header.request_id = a ∧
    ∀ (l3 : List (LiveAct σ H)), (∀ raw, ArrivesIn l3 raw → OtherTraffic a b raw) → ∀ (sets : Bytes) (d : Dict String PyVal),
      SettingsOK e.depth d → ResponseFrame sets (Settings.writeTo d) a → ∀ (ch3 : Choice) (trailing3 : Bytes),
    ∃ (p5 : LiveHost σ H) (out3 body3 : Bytes),
      (p3.actsUsing use e l3).inputUsing use e ch3 (sets ++ trailing3) = (p5, .ok (some out3)) ∧
      ReplyIs out3 r hsk cp ctx body3 ∧
      InitializeExtensionResponse.readFrom body3 = .ok (⟨e.name, e.interfaces⟩, []) := by
  have hR := (C126_history use e (p.actsUsing use e l).registry p l).2 hp
  generalize p.actsUsing use e l = p0 at *
  obtain ⟨a, b, s1, out1, body1, q1, m1, a1, a2, a3, a4, a5, -, -, a8, a9, a10, -, a12⟩ :=
    C44_sequence { e with registry := p0.registry } p0.host hR hframe hm1 hm2 hm3 hname hifs hids hroom ch1 trailing1
  refine ⟨a, b, { p0 with host := s1 }, out1, body1, q1, m1, a1, ?_, a3, a4, a5, a8, a9, a10, ?_⟩
  · obtain ⟨_, _, req, q1, _, _, _, _, _, _, _, _, q10⟩ := frame_parses hframe trailing1
    rw [inputUsing_other use e p0 ch1 _ (fun ⟨_, _, q, qa⟩ => by
      rw [← (q1.unique q).1, q10] at qa; exact absurd qa (by decide +kernel))]
    unfold LiveHost.input LiveHost.env
    rw [a2]
  intro l2 h2 ack hack ch2 trailing2
  obtain ⟨s3, out2, body2, q2, m2, b1, b2, b3, b4, -, -, -, -, b9⟩ :=
    a12 _ ((C126_history use e p0.registry { p0 with host := s1 } l2).1.mono h2) ack hack ch2 trailing2
  generalize ({ p0 with host := s1 } : LiveHost σ H).actsUsing use e l2 = p2 at *
  refine ⟨{ p2 with host := s3 }, out2, body2, q2, ?_, b2, b3, b4, ?_⟩
  · obtain ⟨-, resp, hr, -⟩ := response_frame_parses hack trailing2
    rw [inputUsing_other use e p2 ch2 _ (fun ⟨_, _, q, _⟩ => q.not_response hr)]
    unfold LiveHost.input LiveHost.env
    rw [onInput_registry e _ ch2 _ hr]
    rw [onInput_registry e _ ch2 _ hr] at b1
    rw [b1]
  intro l3 h3 sets d hd hsets ch3 trailing3
  obtain ⟨s5, out3, body3, c1, c2, c3, -⟩ :=
    b9 _ ((C126_history use e p0.registry { p2 with host := s3 } l3).1.mono h3) sets d hd hsets ch3 trailing3
  generalize ({ p2 with host := s3 } : LiveHost σ H).actsUsing use e l3 = p4 at *
  refine ⟨{ p4 with host := s5 }, out3, body3, ?_, c2, c3⟩
  obtain ⟨-, resp, hr, -⟩ := response_frame_parses hsets trailing3
  rw [inputUsing_other use e p4 ch3 _ (fun ⟨_, _, q, _⟩ => q.not_response hr)]
  unfold LiveHost.input LiveHost.env
  rw [onInput_registry e _ ch3 _ hr]
  rw [onInput_registry e _ ch3 _ hr] at c1
  rw [c1]

/-! ## Cases that meet the hypotheses -/

/-- A handler that counts its calls, draws two ids, registers a further route for another handler and answers with the number of settings
there are. -/
def sampleUse : Use Nat Bool := fun _ _ i r =>
  ((2, { i with ext := i.ext + 1, registry := (i.registry.register false [⟨.PUT, "/hello/{name}", "put"⟩]).1 }),
    .ok (ExtensionRestResponse.new (some r) (some .OK) (r.content_ ++ [i.settings.length.toUInt8])))

/-- A handler that changes the settings and raises. -/
def sampleSpoil : Use Nat Bool := fun _ _ i _ => ((1, { i with settings := [("a", .str "b")] }), .error .exception)

def sampleUser : LiveHost Nat Bool := { host := { sampleHost with settings := [("x", .str "y")] }, registry := sampleExt.registry }

example := C126_plain sampleExt sampleUser sampleChoice sampleRestFrame
example := C126_history sampleUse sampleExt ⟨[], []⟩ sampleUser [.input sampleChoice sampleRestFrame, .input sampleChoice sampleInitFrame]
example := C126_rest sampleUse sampleExt sampleUser sampleChoice sampleRestFrame_ok sampleRest_ok (m := .GET) rfl
  (hd := true) (by decide +kernel) rfl
example := C126_raises sampleSpoil sampleExt sampleUser sampleChoice sampleRestFrame_ok sampleRest_ok (m := .GET) rfl
  (hd := true) (by decide +kernel) rfl []
/-- What the handlers did is there afterwards. -/
example : (sampleUser.inputUsing sampleUse sampleExt sampleChoice sampleRestFrame).1.host.ids = 4 ∧
    (sampleUser.inputUsing sampleUse sampleExt sampleChoice sampleRestFrame).1.registry.routes =
      [("GET /hello/*", true), ("PUT /hello/*", false)] ∧
    (sampleUser.inputUsing sampleSpoil sampleExt sampleChoice sampleRestFrame).1.host.settings.map (·.1) = ["a"] := by
  decide +kernel
example : AsksRest sampleRestFrame := ⟨_, _, sampleRest_isRequest, by decide +kernel⟩
example := C126_ids sampleUse sampleExt sampleExt.registry sampleUser ⟨_, ⟨rfl, rfl⟩, .refl⟩ sampleChoice
  (raw := sampleRestFrame) ⟨_, _, sampleRest_isRequest, by decide +kernel⟩ 3 (by decide +kernel) (by decide +kernel)
example := C126_only_rest sampleUse sampleSpoil sampleExt sampleUser sampleChoice _
  (fun ⟨_, _, h, _⟩ => h.not_response sampleAck_isResponse)
example := C126_settings_step sampleSpoil sampleExt sampleUser sampleChoice sampleRestFrame
example := C126_settings sampleUse (fun _ _ _ _ => rfl) sampleExt [.input sampleChoice sampleRestFrame, .input sampleChoice sampleInitFrame]
  sampleUser (by simp)
example := C126_sequence sampleUse sampleExt sampleUser ⟨rfl, rfl⟩ [.input sampleChoice sampleRestFrame] sampleInitFrame_ok
  (by decide +kernel) (by decide +kernel) (by decide +kernel) (by decide +kernel) (by decide +kernel) (by decide +kernel)
  (by decide +kernel) sampleChoice [1, 2]

end Verif
