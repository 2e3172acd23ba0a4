import Verif.Spec.Extension
import Verif.Spec.Routes
import Verif.Lemmas.Rest
import Verif.Spec.Template
/-!
# C29-C34: REST messages, consumption tracking, route registry and dispatch
-/

namespace Verif
open Py Spec

/-! ## C29 -/

/-- A request with something in every field. -/
def sampleRequest : ExtensionRestRequest :=
  { parent_task_id := ⟨"n", some 7⟩
    method := some .GET
    uri := "/é"
    path := "/é"
    params := [("a", "b")]
    headers := [("h", ["1", "2"])]
    media_type := "x/y"
    content_ := [1, 2, 3]
    principal_identifier_token := "t"
    http_version := some .HTTP_1_1 }

theorem requestOK_sample : RequestOK sampleRequest := by
  refine ⟨?_, ?_, ?_, ?_, ?_, ?_, ?_, ?_, ?_, ?_⟩ <;> decide +kernel

/-- C29, requests: a fresh request object that reads what `r` wrote has all the fields of `r` that
are on the wire (nothing is marked consumed yet). -/
theorem C29_request (r : ExtensionRestRequest) (ok : RequestOK r) :
    RoundTrips r.writeTo (ExtensionRestRequest.readFrom {})
      { r with consumed_params := [], content_consumed := false } := by
  have := rt_restRequest ok {}
  have e : (if r.media_type = "" then ({} : ExtensionRestRequest).media_type else r.media_type) =
      r.media_type := by split <;> simp_all
  rw [e] at this
  exact this

example := C29_request sampleRequest (by constructor <;> decide +kernel)

/-- C29, responses: everything is restored, the consumed parameters as a set. -/
theorem C29_response (r : ExtensionRestResponse) (ok : ResponseOK r) :
    ∃ r' : ExtensionRestResponse, RoundTrips r.writeTo ExtensionRestResponse.readFrom r' ∧
      r'.status = r.status ∧ r'.content = r.content ∧ r'.content_type = r.content_type ∧
      r'.headers = r.headers ∧ r'.content_consumed = r.content_consumed ∧
      r'.consumed_params.Nodup ∧ ∀ p, p ∈ r'.consumed_params ↔ p ∈ r.consumed_params :=
  ⟨_, rt_restResponse ok, rfl, rfl, rfl, rfl, rfl, (sorted_perm _).nodup_iff.2 ok.nodup,
    fun _ => (sorted_perm _).mem_iff⟩

example := C29_response { status := some .OK, content := [1], consumed_params := ["b", "a"] }
  (by constructor <;> decide +kernel)

/-- C29, execution responses. -/
theorem C29_execute_response (r : RestExecuteOnExtensionResponse) (ok : ExecuteOK r) :
    RoundTrips r.writeTo RestExecuteOnExtensionResponse.readFrom r := rt_execute ok

example := C29_execute_response { status := some .OK, content := [1], consumed_params := ["b", "a", "b"] }
  (by constructor <;> decide +kernel)

/-- The restriction to fresh objects matters: an object that already has a media type keeps it when
the request on the wire has none (rest/extension_rest_request.py:55-56). -/
theorem C29_stale_media_type (r self : ExtensionRestRequest) (ok : RequestOK r)
    (h : r.media_type = "") (rest : Bytes) :
    ∃ r', ExtensionRestRequest.readFrom self (r.writeTo.out ++ rest) = .ok (r', rest) ∧
      r'.media_type = self.media_type := by
  refine ⟨_, (rt_restRequest ok self).2 rest, ?_⟩
  simp [h]

example := C29_stale_media_type { sampleRequest with media_type := "" } { media_type := "text/plain" }
  (by constructor <;> decide +kernel) rfl [7]

/-- A request or response without method, HTTP version or status cannot be written. -/
theorem C29_incomplete_raises :
    (∀ r : ExtensionRestRequest, r.method = none → r.writeTo.err ≠ none) ∧
    (∀ r : ExtensionRestRequest, r.http_version = none → r.writeTo.err ≠ none) ∧
    (∀ r : ExtensionRestResponse, r.status = none → r.writeTo.err ≠ none) ∧
    (∀ r : RestExecuteOnExtensionResponse, r.status = none → r.writeTo.err ≠ none) := by
  refine ⟨?_, ?_, ?_, ?_⟩ <;> intro r h <;>
    simp [ExtensionRestRequest.writeTo, ExtensionRestResponse.writeTo,
      RestExecuteOnExtensionResponse.writeTo, h, writeEnumOpt]

example : ResponseOK { status := some .OK, content := [1], consumed_params := ["b", "a"] } := by
  refine ⟨?_, ?_, ?_, ?_, ?_, ?_⟩ <;> decide +kernel

example : ExecuteOK { status := some .OK, content := [1], consumed_params := ["b", "a", "b"] } := by
  refine ⟨?_, ?_, ?_, ?_, ?_⟩ <;> decide +kernel

/-! ## C30 -/

theorem session_facts (calls : List Call) (s : Session) :
    SameData (s.run calls).request s.request ∧
    (∀ k, k ∈ (s.run calls).request.consumed_params ↔
      k ∈ s.request.consumed_params ∨ Call.param k ∈ calls) ∧
    (s.request.consumed_params.Nodup → (s.run calls).request.consumed_params.Nodup) ∧
    ((s.run calls).request.content_consumed = true ↔
      s.request.content_consumed = true ∨ Call.content true ∈ calls) := by
  induction calls generalizing s with
  | nil => simp [Session.run, SameData]
  | cons c calls ih =>
    obtain ⟨h1, h2, h3, h4⟩ := ih (s.step c)
    have e : s.run (c :: calls) = (s.step c).run calls := rfl
    rw [e]
    cases c with
    | param k =>
      refine ⟨h1, fun k' => ?_, fun hn => h3 ?_, ?_⟩
      · rw [h2]
        simp only [Session.step, ExtensionRestRequest.param, List.mem_cons, Call.param.injEq]
        split
        · next hk =>
          constructor
          · rintro (h | h)
            · exact .inl h
            · exact .inr (.inr h)
          · rintro (h | rfl | h)
            · exact .inl h
            · exact .inl hk
            · exact .inr h
        · simp only [List.mem_append, List.mem_singleton]; exact or_assoc
      · simp only [Session.step, ExtensionRestRequest.param]
        split
        · exact hn
        · next hk =>
          rw [List.nodup_append]
          exact ⟨hn, by simp, by rintro a ha b hb rfl; simp at hb; subst hb; exact hk ha⟩
      · rw [h4]; simp [Session.step, ExtensionRestRequest.param]
    | hasParam k => exact ⟨h1, by simpa [Session.step] using h2, h3, by simpa [Session.step] using h4⟩
    | hasContent => exact ⟨h1, by simpa [Session.step] using h2, h3, by simpa [Session.step] using h4⟩
    | respond => exact ⟨h1, by simpa [Session.step] using h2, h3, by simpa [Session.step] using h4⟩
    | content b =>
      refine ⟨h1, by simpa [Session.step, ExtensionRestRequest.content] using h2,
        fun hn => h3 (by simpa [Session.step, ExtensionRestRequest.content] using hn), ?_⟩
      rw [h4]
      cases b <;> simp [Session.step, ExtensionRestRequest.content]

/-- C30: after any calls on a request that was just read, the consumed parameters are exactly the
keys passed to `param`, without duplicates, the content is consumed iff some `content` call asked
for it, and nothing else about the request has changed. -/
theorem C30_tracking (r : ExtensionRestRequest) (h1 : r.consumed_params = [])
    (h2 : r.content_consumed = false) (calls : List Call) :
    let r' := (Session.run ⟨r, []⟩ calls).request
    (∀ k, k ∈ r'.consumed_params ↔ Call.param k ∈ calls) ∧ r'.consumed_params.Nodup ∧
    (r'.content_consumed = true ↔ Call.content true ∈ calls) ∧ SameData r' r := by
  obtain ⟨f1, f2, f3, f4⟩ := session_facts calls ⟨r, []⟩
  refine ⟨fun k => ?_, f3 (by simp [h1]), ?_, f1⟩
  · rw [f2]; simp [h1]
  · rw [f4]; simp [h2]

example := C30_tracking sampleRequest rfl rfl [.param "a", .respond, .param "z", .content true, .param "a"]

/-- C30, results: the accessors return the request's data, whatever was called before: `param` the
stored value or nothing, `has_param` whether there is one, `content` the whole content,
`has_content` whether it is non-empty. -/
theorem C30_results (r : ExtensionRestRequest) (calls : List Call) (k : String) (b : Bool) :
    let r' := (Session.run ⟨r, []⟩ calls).request
    (r'.param k).2 = r.params.get? k ∧ (r'.hasParam k = true ↔ ∃ v, r.params.get? k = some v) ∧
    (r'.content b).2 = r.content_ ∧ (r'.hasContent = true ↔ r.content_ ≠ []) := by
  intro r'
  have hd : SameData r' r := (session_facts calls ⟨r, []⟩).1
  have e1 : r'.params = r.params := by have := congrArg ExtensionRestRequest.params hd; exact this
  have e2 : r'.content_ = r.content_ := by have := congrArg ExtensionRestRequest.content_ hd; exact this
  refine ⟨?_, ?_, e2, ?_⟩
  · simp only [ExtensionRestRequest.param, e1, Dict.contains]
    cases r.params.get? k <;> rfl
  · simp only [ExtensionRestRequest.hasParam, e1, Dict.contains]
    cases r.params.get? k <;> simp
  · simp only [ExtensionRestRequest.hasContent, e2, decide_eq_true_eq, List.length_pos_iff]

/-- C30, responses: `ExtensionRestResponse(request)` built after the calls reports exactly what the
request has recorded. -/
theorem C30_response (r : ExtensionRestRequest) (h1 : r.consumed_params = [])
    (h2 : r.content_consumed = false) (calls : List Call) (st : Option RestStatus) (c : Bytes)
    (ct : String) (hs : Dict String (List String)) :
    let resp := ExtensionRestResponse.new (some (Session.run ⟨r, []⟩ calls).request) st c ct hs
    (∀ k, k ∈ resp.consumed_params ↔ Call.param k ∈ calls) ∧
    (resp.content_consumed = true ↔ Call.content true ∈ calls) ∧
    resp.status = st ∧ resp.content = c ∧ resp.content_type = ct ∧ resp.headers = hs :=
  have h := C30_tracking r h1 h2 calls
  ⟨h.1, h.2.2.1, rfl, rfl, rfl, rfl⟩

example := C30_response sampleRequest rfl rfl [.param "a", .respond, .param "z", .content true, .param "a"]

/-- C30, a response built in the middle of the calls and written at the end reports *all* parameters
consumed (the set is shared), but the content flag as it was when the response was built. -/
theorem C30_early_response (r : ExtensionRestRequest) (h1 : r.consumed_params = [])
    (h2 : r.content_consumed = false) (before after : List Call) (hb : Call.respond ∉ before) :
    ∃ ps flag, (Session.run ⟨r, []⟩ (before ++ Call.respond :: after)).response 0 = some (ps, flag) ∧
      (∀ k, k ∈ ps ↔ Call.param k ∈ before ∨ Call.param k ∈ after) ∧
      (flag = true ↔ Call.content true ∈ before) := by
  have hf : ∀ (l : List Call) (s : Session), Call.respond ∉ l → (s.run l).flags = s.flags := by
    intro l
    induction l with
    | nil => intro s _; rfl
    | cons c l ih =>
      intro s h
      have : (s.step c).flags = s.flags := by
        cases c <;> simp_all [Session.step]
      exact (ih (s.step c) (by intro h'; exact h (by simp [h']))).trans this
  have hp : ∀ (l : List Call) (s : Session) (f : Bool), s.flags[0]? = some f → (s.run l).flags[0]? = some f := by
    intro l
    induction l with
    | nil => intro s f h; exact h
    | cons c l ih =>
      intro s f h
      refine ih (s.step c) f ?_
      cases c <;> simp only [Session.step] <;> try exact h
      rw [List.getElem?_append_left]
      · exact h
      · exact (List.getElem?_eq_some_iff.1 h).1
  have e : Session.run ⟨r, []⟩ (before ++ Call.respond :: after) =
      (((Session.run ⟨r, []⟩ before).step .respond).run after) := by
    simp [Session.run, List.foldl_append]
  obtain ⟨b1, b2, b3, b4⟩ := session_facts before ⟨r, []⟩
  obtain ⟨a1, a2, a3, a4⟩ := session_facts after ((Session.run ⟨r, []⟩ before).step .respond)
  have hfl : ((Session.run ⟨r, []⟩ before).step .respond).flags[0]? =
      some (Session.run ⟨r, []⟩ before).request.content_consumed := by
    simp [Session.step, hf before ⟨r, []⟩ hb]
  rw [e]
  refine ⟨_, _, by unfold Session.response; rw [hp _ _ _ hfl]; rfl, fun k => ?_, ?_⟩
  · rw [a2]
    show k ∈ (Session.run ⟨r, []⟩ before).request.consumed_params ∨ _ ↔ _
    rw [b2]; simp [h1]
  · rw [b4]; simp [h2]

example := C30_early_response sampleRequest rfl rfl [.param "a"] [.content true] (by decide)

example : let r : ExtensionRestRequest := { params := [("a", "1")], content_ := [1] }
    let s := Session.run ⟨r, []⟩ [.param "a", .respond, .param "z", .content true, .param "a"]
    s.request.consumed_params = ["a", "z"] ∧ s.request.content_consumed = true ∧
    s.response 0 = some (["a", "z"], false) := by decide +kernel

/-! ## C31, C32 -/

section registry
variable {H : Type}

theorem register_spec (h : H) (reg : Registry H) (routes : List NamedRoute) :
    ∃ accepted rejected, routes = accepted ++ rejected ∧
      (reg.register h routes).1.routes = reg.routes ++ accepted.map (fun r => (wildcard r.key, h)) ∧
      (reg.register h routes).1.named_routes = reg.named_routes ++ accepted.map NamedRoute.str ∧
      (reg.routes.WF → (reg.register h routes).1.routes.WF) ∧
      ((reg.register h routes).2 = none ↔ rejected = []) ∧
      (∀ r rs, rejected = r :: rs →
        wildcard r.key ∈ (reg.register h routes).1.routes.map (·.1)) := by
  unfold Registry.register
  induction routes generalizing reg with
  | nil => exact ⟨[], [], by simp [Registry.registerLoop]⟩
  | cons r rs ih =>
    by_cases hc : reg.routes.contains (wildcard r.key) = true
    · refine ⟨[], r :: rs, rfl, ?_⟩
      simp only [Registry.registerLoop, hc, if_true]
      refine ⟨by simp, by simp, id, by simp, ?_⟩
      rintro r' rs' h'; cases h'; exact Dict.contains_iff.1 hc
    · have hc' : wildcard r.key ∉ reg.routes.map (·.1) := fun h' => hc (Dict.contains_iff.2 h')
      obtain ⟨acc, rej, h1, h2, h3, h4, h5, h6⟩ :=
        ih ⟨reg.routes.set (wildcard r.key) h, reg.named_routes ++ [r.str]⟩
      refine ⟨r :: acc, rej, by simp [h1], ?_⟩
      simp only [Registry.registerLoop, hc]
      simp only [Dict.set_of_not_mem hc'] at h2 h3 h4 h5 h6 ⊢
      refine ⟨by simpa using h2, by simpa using h3, fun hw => h4 ?_, h5, h6⟩
      have := Dict.WF.set hw (wildcard r.key) h
      rwa [Dict.set_of_not_mem hc'] at this

theorem register_facts (reg : Registry H) (hw : reg.routes.WF) (h : H) (routes : List NamedRoute) :
    ∃ accepted rejected, routes = accepted ++ rejected ∧
      (reg.register h routes).1.routes = reg.routes ++ accepted.map (fun r => (wildcard r.key, h)) ∧
      (reg.register h routes).1.named_routes = reg.named_routes ++ accepted.map NamedRoute.str ∧
      (reg.register h routes).1.routes.WF ∧
      ((reg.register h routes).2 = none ↔ rejected = []) ∧
      (∀ r rs, rejected = r :: rs →
        ∃ h', (reg.register h routes).1.routes.get? (wildcard r.key) = some h') := by
  obtain ⟨acc, rej, h1, h2, h3, h4, h5, h6⟩ := register_spec h reg routes
  refine ⟨acc, rej, h1, h2, h3, h4 hw, h5, fun r rs hr => ?_⟩
  have := h6 r rs hr
  cases hg : (reg.register h routes).1.routes.get? (wildcard r.key) with
  | some x => exact ⟨x, rfl⟩
  | none => exact absurd this (Dict.get?_eq_none.1 hg)

/-- C31, one registration: some first part of the handler's routes is accepted, in order: their keys
are appended to the table with this handler, their texts to the advertised routes; nothing already
there is touched.  It raises exactly when a route is left over, and then because the key of the
first one left over is already in the table. -/
theorem C31_register (reg : Registry H) (hw : reg.routes.WF) (h : H) (routes : List NamedRoute) :
    ∃ accepted rejected, routes = accepted ++ rejected ∧
      (reg.register h routes).1.routes = reg.routes ++ accepted.map (fun r => (wildcard (Spec.routeKey r), h)) ∧
      (reg.register h routes).1.named_routes = reg.named_routes ++ accepted.map Spec.routeLine ∧
      (reg.register h routes).1.routes.WF ∧
      ((reg.register h routes).2 = none ↔ rejected = []) ∧
      (∀ r rs, rejected = r :: rs →
        ∃ h', (reg.register h routes).1.routes.get? (wildcard (Spec.routeKey r)) = some h') :=
  register_facts reg hw h routes

example := C31_register (⟨[("GET /a/*", 1)], ["GET /a/{x} ax"]⟩ : Registry Nat) (by decide +kernel) 2
  [⟨.GET, "/b", "b"⟩, ⟨.GET, "/a/{y}", "ay"⟩, ⟨.GET, "/c", "c"⟩]

/-- C31: a key that is in the table keeps its handler through any registration, and a handler with a
route of that key is refused. -/
theorem C31_no_replacement (reg : Registry H) (hw : reg.routes.WF) (h h0 : H) (routes : List NamedRoute)
    (k : String) (hk : reg.routes.get? k = some h0) :
    (reg.register h routes).1.routes.get? k = some h0 ∧
    ((∃ r ∈ routes, wildcard (Spec.routeKey r) = k) → (reg.register h routes).2 = some .exception) := by
  obtain ⟨acc, rej, h1, h2, h3, h4, h5, h6⟩ := register_facts reg hw h routes
  constructor
  · apply Dict.get?_of_mem h4
    rw [h2]; exact List.mem_append_left _ (Dict.get?_mem hk)
  · rintro ⟨r, hr, rfl⟩
    have hne : rej ≠ [] := by
      rintro rfl
      rw [List.append_nil] at h1
      subst h1
      unfold Dict.WF at h4
      rw [h2, List.map_append, List.nodup_append] at h4
      refine h4.2.2 _ (List.mem_map.2 ⟨_, Dict.get?_mem hk, rfl⟩) (wildcard r.key) ?_ rfl
      simp only [List.map_map, List.mem_map, Function.comp]
      exact ⟨r, hr, rfl⟩
    have herr : ∀ (l : List NamedRoute) (g : Registry H) (e : Err),
        (Registry.registerLoop h g l).2 = some e → e = .exception := by
      intro l
      induction l with
      | nil => intro g e he; simp [Registry.registerLoop] at he
      | cons x xs ih =>
        intro g e he
        simp only [Registry.registerLoop] at he
        split at he
        · simpa using he.symm
        · exact ih _ e he
    cases he : (reg.register h routes).2 with
    | none => exact absurd (h5.1 he) hne
    | some e => rw [herr routes reg e he]

example := C31_no_replacement (⟨[("GET /a/*", 1)], ["GET /a/{x} ax"]⟩ : Registry Nat) (by decide +kernel) 2 1
  [⟨.GET, "/b", "b"⟩, ⟨.GET, "/a/{y}", "ay"⟩] "GET /a/*" (by decide +kernel)

theorem history_facts (regs : List (H × List NamedRoute)) :
    ∃ log : List (H × NamedRoute),
      (registerAll ⟨[], []⟩ regs).routes = log.map (fun x => (wildcard x.2.key, x.1)) ∧
      (registerAll ⟨[], []⟩ regs).named_routes = log.map (fun x => x.2.str) ∧
      (log.map fun x => wildcard x.2.key).Nodup ∧
      (∀ x ∈ log, ∃ routes, (x.1, routes) ∈ regs ∧ x.2 ∈ routes) ∧
      (∀ x ∈ log, (registerAll ⟨[], []⟩ regs).routes.get? (wildcard x.2.key) = some x.1) := by
  suffices gen : ∀ (regs done : List (H × List NamedRoute)) (reg : Registry H) (log : List (H × NamedRoute)),
      reg.routes = log.map (fun x => (wildcard x.2.key, x.1)) →
      reg.named_routes = log.map (fun x => x.2.str) → reg.routes.WF →
      (∀ x ∈ log, ∃ routes, (x.1, routes) ∈ done ∧ x.2 ∈ routes) →
      ∃ log' : List (H × NamedRoute),
        (registerAll reg regs).routes = log'.map (fun x => (wildcard x.2.key, x.1)) ∧
        (registerAll reg regs).named_routes = log'.map (fun x => x.2.str) ∧
        (registerAll reg regs).routes.WF ∧
        (∀ x ∈ log', ∃ routes, (x.1, routes) ∈ done ++ regs ∧ x.2 ∈ routes) by
    obtain ⟨log, g1, g2, g3, g4⟩ := gen regs [] ⟨[], []⟩ [] rfl rfl List.nodup_nil (by simp)
    refine ⟨log, g1, g2, ?_, by simpa using g4, fun x hx => ?_⟩
    · have := g3; rw [g1] at this; unfold Dict.WF at this; simpa [List.map_map, Function.comp_def] using this
    · exact Dict.get?_of_mem g3 (by rw [g1]; exact List.mem_map.2 ⟨x, hx, rfl⟩)
  intro regs
  induction regs with
  | nil => intro done reg log h1 h2 h3 h4; exact ⟨log, h1, h2, h3, by simpa using h4⟩
  | cons x regs ih =>
    intro done reg log h1 h2 h3 h4
    obtain ⟨acc, rej, e1, e2, e3, e4, _, _⟩ := register_facts reg h3 x.1 x.2
    have := ih (done ++ [x]) (reg.register x.1 x.2).1 (log ++ acc.map fun r => (x.1, r))
      (by rw [e2, h1]; simp [List.map_map, Function.comp_def])
      (by rw [e3, h2]; simp [List.map_map, Function.comp_def]) e4 (by
        intro y hy
        rcases List.mem_append.1 hy with hy | hy
        · obtain ⟨rs, a, b⟩ := h4 y hy; exact ⟨rs, by simp [a], b⟩
        · obtain ⟨r, hr, rfl⟩ := List.mem_map.1 hy
          exact ⟨x.2, by simp, by rw [e1]; exact List.mem_append_left _ hr⟩)
    simpa [registerAll] using this

/-- C31: after any sequence of registrations, failed ones included, the table and the advertised
routes list exactly the accepted routes in the order they were accepted: there is a log of
(handler, route) pairs, each a route that this handler asked to register, with pairwise different
keys, such that the table maps the wildcard form of each logged route to its handler (and nothing
else), and the advertised routes are the logged routes' texts. -/
theorem C31_history (regs : List (H × List NamedRoute)) :
    ∃ log : List (H × NamedRoute),
      (registerAll ⟨[], []⟩ regs).routes = log.map (fun x => (wildcard (Spec.routeKey x.2), x.1)) ∧
      (registerAll ⟨[], []⟩ regs).named_routes = log.map (fun x => Spec.routeLine x.2) ∧
      (log.map fun x => wildcard (Spec.routeKey x.2)).Nodup ∧
      (∀ x ∈ log, ∃ routes, (x.1, routes) ∈ regs ∧ x.2 ∈ routes) ∧
      (∀ x ∈ log, (registerAll ⟨[], []⟩ regs).routes.get? (wildcard (Spec.routeKey x.2)) = some x.1) :=
  history_facts regs

/-- C32 as proved: a failed registration never removes or replaces anything, and for a handler with
at most one route the registry is exactly as before.  Missing: handlers with several routes, for
which the property is false (next theorem). -/
theorem C32_partial (reg : Registry H) (hw : reg.routes.WF) (h : H) (routes : List NamedRoute)
    (he : (reg.register h routes).2 ≠ none) :
    (∃ added, (reg.register h routes).1.routes = reg.routes ++ added) ∧
    (routes.length ≤ 1 → (reg.register h routes).1 = reg) := by
  obtain ⟨acc, rej, e1, e2, e3, e4, e5, _⟩ := register_facts reg hw h routes
  refine ⟨⟨_, e2⟩, fun hl => ?_⟩
  have hne : rej ≠ [] := fun h' => he (e5.2 h')
  have hacc : acc = [] := by
    cases acc with
    | nil => rfl
    | cons a as =>
      cases rej with
      | nil => exact absurd rfl hne
      | cons b bs => simp [e1] at hl
  subst hacc
  cases hr : (reg.register h routes).1 with
  | mk a b => rw [hr] at e2 e3; simp at e2 e3; subst e2 e3; rfl

example := C32_partial (⟨[("GET /a/*", 1)], ["GET /a/{x} ax"]⟩ : Registry Nat) (by decide +kernel) 2
  [⟨.GET, "/b", "b"⟩, ⟨.GET, "/a/{y}", "ay"⟩] (by decide +kernel)

/-- C32, what is left behind: unless the very first route conflicts, the routes before the conflict
stay registered and advertised. -/
theorem C32_what_remains (reg : Registry H) (hw : reg.routes.WF) (h : H) (r : NamedRoute) (rs : List NamedRoute)
    (hfree : reg.routes.get? (wildcard (Spec.routeKey r)) = none) :
    (reg.register h (r :: rs)).1.routes.get? (wildcard (Spec.routeKey r)) = some h ∧
    (reg.register h (r :: rs)).1.named_routes ≠ reg.named_routes := by
  change reg.routes.get? (wildcard r.key) = none at hfree
  change (reg.register h (r :: rs)).1.routes.get? (wildcard r.key) = some h ∧ _
  obtain ⟨acc, rej, e1, e2, e3, e4, _, e6⟩ := register_facts reg hw h (r :: rs)
  cases acc with
  | nil =>
    exfalso
    simp at e1
    obtain ⟨x, hx⟩ := e6 r rs e1.symm
    rw [e2] at hx
    simp at hx
    rw [hfree] at hx
    cases hx
  | cons a as =>
    simp at e1
    obtain ⟨rfl, rfl⟩ := e1
    exact ⟨Dict.get?_of_mem e4 (by rw [e2]; simp), by rw [e3]; simp⟩

example := C32_what_remains (⟨[("GET /a/*", 1)], ["GET /a/{x} ax"]⟩ : Registry Nat) (by decide +kernel) 2
  ⟨.GET, "/b", "b"⟩ [⟨.GET, "/a/{y}", "ay"⟩] (by decide +kernel)

/-- C32, exactly: a registration that fails leaves the registry as it was if, and only if, the
handler's very first route is the one that conflicts with a route registered before.  In every
other failing case the property is violated. -/
theorem C32_exact (reg : Registry H) (hw : reg.routes.WF) (h : H) (routes : List NamedRoute)
    (he : (reg.register h routes).2 ≠ none) :
    (reg.register h routes).1 = reg ↔
      ∃ r rs h', routes = r :: rs ∧ reg.routes.get? (wildcard (Spec.routeKey r)) = some h' := by
  constructor
  · intro hsame
    obtain ⟨acc, rej, e1, e2, e3, e4, e5, e6⟩ := C31_register reg hw h routes
    have hne : rej ≠ [] := fun h' => he (e5.2 h')
    cases acc with
    | nil =>
      cases rej with
      | nil => exact absurd rfl hne
      | cons r rs =>
        obtain ⟨x, hx⟩ := e6 r rs rfl
        rw [hsame] at hx
        exact ⟨r, rs, x, e1, hx⟩
    | cons a as =>
      exfalso
      rw [hsame] at e3
      have := congrArg List.length e3
      simp at this
  · rintro ⟨r, rs, x, rfl, hx⟩
    obtain ⟨acc, rej, e1, e2, e3, e4, e5, e6⟩ := register_facts reg hw h (r :: rs)
    have hacc : acc = [] := by
      cases acc with
      | nil => rfl
      | cons a as =>
        exfalso
        simp only [List.cons_append, List.cons.injEq] at e1
        obtain ⟨rfl, _⟩ := e1
        unfold Dict.WF at e4
        rw [e2, List.map_append, List.nodup_append] at e4
        exact e4.2.2 _ (List.mem_map.2 ⟨_, Dict.get?_mem hx, rfl⟩) (wildcard r.key) (by simp) rfl
    subst hacc
    cases hr : (reg.register h (r :: rs)).1 with
    | mk a b => rw [hr] at e2 e3; simp at e2 e3; subst e2 e3; rfl

example := C32_exact (⟨[("GET /a/*", 1)], ["GET /a/{x} ax"]⟩ : Registry Nat) (by decide +kernel) 2
  [⟨.GET, "/b", "b"⟩, ⟨.GET, "/a/{y}", "ay"⟩] (by decide +kernel)

/-- C32 is false of the code: here the second handler's second route conflicts with the first
handler's, registering it raises, and its first route stays registered. -/
theorem C32_violated :
    ∃ (reg : Registry Nat) (h : Nat) (routes : List NamedRoute), reg.routes.WF ∧
      (reg.register h routes).2 = some .exception ∧ (reg.register h routes).1.routes ≠ reg.routes ∧
      (reg.register h routes).1.named_routes ≠ reg.named_routes := by
  refine ⟨registerAll ⟨[], []⟩ [(1, [⟨.GET, "/x/{id}", "a"⟩])], 2,
    [⟨.GET, "/y", "b"⟩, ⟨.GET, "/x/{other}", "c"⟩], ?_⟩
  decide +kernel

/-! ## C33 -/

theorem firstMatch_spec (route : String) (d : Dict String H) :
    (Registry.firstMatch route d = none ↔ ∀ kv ∈ d, fnmatch route kv.1 = false) ∧
    ∀ before k h after, d = before ++ (k, h) :: after → (∀ kv ∈ before, fnmatch route kv.1 = false) →
      fnmatch route k = true → Registry.firstMatch route d = some h := by
  induction d with
  | nil => simp [Registry.firstMatch]
  | cons kv d ih =>
    obtain ⟨k0, h0⟩ := kv
    simp only [Registry.firstMatch]
    constructor
    · by_cases hm : fnmatch route k0 = true
      · simp [hm]
      · simp [hm, ih.1]
    · intro before k h after hd hb hk
      cases before with
      | nil => simp at hd; obtain ⟨⟨rfl, rfl⟩, rfl⟩ := hd; simp [hk]
      | cons x xs =>
        simp at hd
        obtain ⟨rfl, rfl⟩ := hd
        have := hb (k0, h0) (by simp)
        simp only at this
        simp only [this, Bool.false_eq_true, if_false]
        exact ih.2 xs k h after rfl (fun kv hkv => hb kv (by simp [hkv])) hk

/-- C33, exact routes come first. -/
theorem C33_exact {σ α β : Type} (reg : Registry H) (run : H → σ → α → σ × Except Err β) (route : String)
    (s : σ) (req : α) (h : H) (he : reg.routes.get? route = some h) :
    reg.handle run route s req = run h s req := by
  simp [Registry.handle, Registry.dispatch, he]

example := C33_exact (σ := Nat) (α := Unit) (β := Unit) (⟨[("GET /*", 1), ("GET /a", 2)], []⟩ : Registry Nat)
  (fun h s _ => (s + h, .ok ())) "GET /a" 0 () 2 (by decide +kernel)

/-- C33, otherwise the earliest registered key that matches. -/
theorem C33_first_match {σ α β : Type} (reg : Registry H) (run : H → σ → α → σ × Except Err β) (route : String)
    (s : σ) (req : α) (hne : reg.routes.get? route = none)
    (before : Dict String H) (k : String) (h : H) (after : Dict String H)
    (hd : reg.routes = before ++ (k, h) :: after) (hb : ∀ kv ∈ before, fnmatch route kv.1 = false)
    (hk : fnmatch route k = true) : reg.handle run route s req = run h s req := by
  simp [Registry.handle, Registry.dispatch, hne, (firstMatch_spec route reg.routes).2 before k h after hd hb hk]

example := C33_first_match (σ := Nat) (α := Unit) (β := Unit) (⟨[("PUT /*", 1), ("GET /*", 2), ("GET /a*", 3)], []⟩ : Registry Nat)
  (fun h s _ => (s + h, .ok ())) "GET /a" 0 () (by decide +kernel) [("PUT /*", 1)] "GET /*" 2 [("GET /a*", 3)] rfl
  (by decide +kernel) (by decide +kernel)

/-- C33, otherwise an error, and no handler runs (the extension's state is unchanged). -/
theorem C33_no_match {σ α β : Type} (reg : Registry H) (run : H → σ → α → σ × Except Err β) (route : String)
    (s : σ) (req : α) (hne : reg.routes.get? route = none)
    (hb : ∀ kv ∈ reg.routes, fnmatch route kv.1 = false) :
    reg.handle run route s req = (s, .error .exception) := by
  simp [Registry.handle, Registry.dispatch, hne, (firstMatch_spec route reg.routes).1.2 hb]

example := C33_no_match (σ := Nat) (α := Unit) (β := Unit) (⟨[("PUT /*", 1), ("GET /b*", 2)], []⟩ : Registry Nat)
  (fun h s _ => (s + h, .ok ())) "GET /a" 0 () (by decide +kernel) (by decide +kernel)

/-- C33, the three cases are exhaustive: a handler is found exactly when the route is a key or
matches a key. -/
theorem C33_found_iff (reg : Registry H) (route : String) :
    (∃ h, reg.dispatch route = some h) ↔
      (∃ h, reg.routes.get? route = some h) ∨ ∃ kv ∈ reg.routes, fnmatch route kv.1 = true := by
  unfold Registry.dispatch
  cases hg : reg.routes.get? route with
  | some h => simp
  | none =>
    simp only [reduceCtorEq, exists_false, false_or]
    constructor
    · rintro ⟨h, hh⟩
      by_contra hc
      have : ∀ kv ∈ reg.routes, fnmatch route kv.1 = false := by
        intro kv hkv
        by_contra hx
        exact hc ⟨kv, hkv, by simpa using hx⟩
      rw [(firstMatch_spec route reg.routes).1.2 this] at hh
      cases hh
    · rintro ⟨kv, hkv, hm⟩
      cases hf : Registry.firstMatch route reg.routes with
      | some h => exact ⟨h, rfl⟩
      | none =>
        have := (firstMatch_spec route reg.routes).1.1 hf kv hkv
        rw [hm] at this; cases this

end registry

example : let reg : Registry Nat := ⟨[("GET /*", 1), ("GET /a/*", 2), ("GET /a/b", 3)], []⟩
    reg.dispatch "GET /a/b" = some 3 ∧ reg.dispatch "GET /a/c" = some 1 ∧ reg.dispatch "PUT /" = none := by
  decide +kernel

/-! ## C34 -/

/-- The wildcard key of a template. -/
def starForm : List Piece → List Char
  | [] => []
  | .text s :: ps => s ++ starForm ps
  | .placeholder _ :: ps => '*' :: starForm ps

theorem subBraces_template (ps : List Piece) (h : ∀ p ∈ ps, PieceOK p) (fuel : Nat)
    (hf : (templateText ps).length ≤ fuel) : subBraces fuel (templateText ps) = starForm ps := by
  induction ps generalizing fuel with
  | nil => cases fuel <;> rfl
  | cons p ps ih =>
    have hp := h p (by simp)
    have ih := ih (fun q hq => h q (by simp [hq]))
    cases p with
    | text s =>
      simp only [templateText, starForm] at hf ⊢
      rw [subBraces_plain _ _ (fun hc => (hp _ hc).2.2.2 rfl) _ hf, ih _ (by simp at hf; omega)]
    | placeholder n =>
      simp only [templateText, starForm, List.length_cons, List.length_append] at hf ⊢
      rw [subBraces_hole _ _ hp.1 hp.2 _ (by omega), ih _ (by omega)]

theorem match_starForm (ps : List Piece) (h : ∀ p ∈ ps, PieceOK p) (fuel : Nat)
    (hf : (starForm ps).length ≤ fuel) (route : List Char) :
    Glob.matchAll (Glob.translate fuel (starForm ps)) route = true ↔ Fills ps route := by
  induction ps generalizing fuel route with
  | nil =>
    have : Glob.translate fuel (starForm []) = [] := by cases fuel <;> rfl
    rw [this]
    simp only [Glob.matchAll, List.isEmpty_iff]
    constructor
    · rintro rfl; exact Fills.nil
    · intro h; cases h; rfl
  | cons p ps ih =>
    have hp := h p (by simp)
    have ih := ih (fun q hq => h q (by simp [hq]))
    cases p with
    | text s =>
      simp only [starForm] at hf ⊢
      rw [translate_plain s _ (fun c hc => ⟨(hp c hc).1, (hp c hc).2.1, (hp c hc).2.2.1⟩) _ hf, matchAll_lits]
      constructor
      · rintro ⟨b, rfl, hb⟩
        exact Fills.text s ((ih _ (by simp at hf; omega) b).1 hb)
      · intro hfl
        cases hfl with
        | text _ hr => exact ⟨_, rfl, (ih _ (by simp at hf; omega) _).2 hr⟩
    | placeholder n =>
      simp only [starForm, List.length_cons] at hf ⊢
      rw [translate_star _ _ hf]
      simp only [Glob.matchAll]
      rw [starMatch_iff]
      constructor
      · rintro ⟨a, b, rfl, hb⟩
        exact Fills.placeholder n a ((ih _ (by omega) b).1 hb)
      · intro hfl
        cases hfl with
        | placeholder _ v hr => exact ⟨v, _, rfl, (ih _ (by omega) _).2 hr⟩

/-- C34: the key registered for a template matches exactly the routes obtained by filling the
placeholders with arbitrary texts. -/
theorem C34_placeholders (ps : List Piece) (h : ∀ p ∈ ps, PieceOK p) (route : String) :
    fnmatch route (wildcard (String.ofList (templateText ps))) = true ↔ Fills ps route.toList := by
  unfold fnmatch wildcard
  simp only [String.toList_ofList]
  rw [subBraces_template ps h _ (le_refl _)]
  exact match_starForm ps h _ (le_refl _) _

example := C34_placeholders [.text "GET /a/".toList, .placeholder "x".toList, .text "/b".toList] (by decide +kernel)
  "GET /a/1/2/b"

/-- C34: a template without placeholders (and glob characters) matches only itself. -/
theorem C34_literal (t : String) (h : ∀ c ∈ t.toList, c ≠ '*' ∧ c ≠ '?' ∧ c ≠ '[' ∧ c ≠ '{')
    (route : String) : fnmatch route (wildcard t) = true ↔ route = t := by
  have := C34_placeholders [.text t.toList] (by intro p hp; rw [List.mem_singleton.1 hp]; exact h) route
  simp only [templateText, List.append_nil, String.ofList_toList] at this
  rw [this]
  constructor
  · intro hf
    generalize hr : route.toList = l at hf
    cases hf with
    | text _ hr' =>
      cases hr'
      rw [List.append_nil] at hr
      exact String.toList_inj.1 hr
  · rintro rfl
    have := Fills.text route.toList Fills.nil
    rwa [List.append_nil] at this

example := C34_literal "GET /hello" (by decide +kernel) "GET /hello"

/-- C34, applied to the dispatcher: a request for a filled-in template is dispatched to some
registered handler whose key matches, whatever else is registered; and the key is the template with
`*` in the place of the placeholders. -/
theorem C34_dispatched {H : Type} (reg : Registry H) (ps : List Piece) (h : ∀ p ∈ ps, PieceOK p)
    (hd : H) (hreg : (wildcard (String.ofList (templateText ps)), hd) ∈ reg.routes)
    (route : String) (hf : Fills ps route.toList) : ∃ h', reg.dispatch route = some h' :=
  (C33_found_iff reg route).2 (.inr ⟨_, hreg, (C34_placeholders ps h route).2 hf⟩)

example := C34_dispatched ⟨[("GET /a/*/b", 7)], []⟩ [.text "GET /a/".toList, .placeholder "x".toList, .text "/b".toList]
  (by decide +kernel) 7 (by decide +kernel) "GET /a/1/2/b"
  ((C34_placeholders [.text "GET /a/".toList, .placeholder "x".toList, .text "/b".toList] (by decide +kernel) _).1 (by decide +kernel))

example : (∀ p ∈ [Piece.text "GET /a/".toList, .placeholder "x".toList, .text "/b".toList], PieceOK p) ∧
    Fills [Piece.text "GET /a/".toList, .placeholder "x".toList, .text "/b".toList] "GET /a/1/2/b".toList ∧
    String.ofList (templateText [Piece.text "GET /a/".toList, .placeholder "x".toList, .text "/b".toList]) =
      "GET /a/{x}/b" := by
  refine ⟨by decide +kernel, ?_, by decide +kernel⟩
  exact Fills.text "GET /a/".toList (Fills.placeholder _ "1/2".toList (Fills.text "/b".toList Fills.nil))

end Verif
