import Verif.Spec.Samples
import Verif.Props.Extension
import Verif.Props.Requests
import Verif.Model.Samples
/-!
# C73, C74: the sample extensions, end to end
-/

namespace Verif
open Py StreamInput StreamOutput

theorem order_single (ho : HashOrder) (ps : List String) (h : ps.length ≤ 1) : ho.order ps = ps := by
  have hp := ho.perm ps
  match ps, h with
  | [], _ => exact List.perm_nil.1 hp
  | [k], _ => exact List.perm_singleton.1 hp

/-- A response with status OK, one of the two content types, no headers and at most one short
parameter consumed: it fits, and how long the message made from it is. -/
theorem answer_facts (ch : Choice) {content : Bytes} {ct : String} {ps : List String} {cc : Bool}
    (hct : ct = TEXT_CONTENT_TYPE ∨ ct = JSON_CONTENT_TYPE)
    (hps : ps = [] ∨ ps = ["name"] ∨ ps = ["q"] ∨ ps = ["id"]) (hc : content.length < 2 ^ 31 - 1000) :
    ResponseOK ⟨some .OK, content, ct, [], ps, cc⟩ ∧
    (executeResponse ch ⟨some .OK, content, ct, [], ps, cc⟩).writeTo.out.length ≤ 100 + content.length := by
  have hord : ch.ho.order ps = ps := order_single _ _ (by rcases hps with h | h | h | h <;> simp [h])
  constructor
  · refine ⟨by simp, by simp only; omega, ?_, by show StrsDictOK []; decide +kernel, ?_, ?_⟩
    · show StrOK ct
      rcases hct with rfl | rfl <;> decide +kernel
    · show StrsOK ps
      rcases hps with rfl | rfl | rfl | rfl <;> decide +kernel
    · show ps.Nodup
      rcases hps with rfl | rfl | rfl | rfl <;> decide +kernel
  · unfold executeResponse
    simp only [hord]
    have step : ∀ {a b : W} {m n : Nat}, a.out.length ≤ m → b.out.length ≤ n → (a ++ b).out.length ≤ m + n :=
      fun h1 h2 => (append_length_le _ _).trans (Nat.add_le_add h1 h2)
    have h1 : (writeEnumOpt (some RestStatus.OK)).out.length ≤ 2 := by
      show (writeVInt (PyEnum.value RestStatus.OK)).out.length ≤ 2
      decide +kernel
    have h2 : (writeString ct).out.length ≤ 40 := by rcases hct with rfl | rfl <;> decide +kernel
    have h3 : (writeVInt content.length).out.length ≤ 5 := by
      rw [writeVInt_nat_out]
      exact (varint_length_le 4 _).2 (by omega)
    have h4 : (W.emit content).out.length ≤ content.length := le_refl _
    have h5 : (writeStringArrayDict []).out.length ≤ 1 := by decide +kernel
    have h6 : (writeStringArray ps).out.length ≤ 10 := by rcases hps with rfl | rfl | rfl | rfl <;> decide +kernel
    have h7 : (writeBoolean cc).out.length ≤ 1 := by cases cc <;> decide +kernel
    have := step h1 (step h2 (step h3 (step h4 (step h5 (step h6 h7)))))
    exact this.trans (by omega)

theorem get_contains (d : Dict String String) (k : String) :
    (if d.contains k = true then d.get? k else none) = d.get? k := by
  by_cases h : d.contains k = true
  · rw [if_pos h]
  · rw [if_neg h]
    unfold Dict.contains at h
    revert h
    generalize d.get? k = x
    cases x <;> simp

variable {σ H : Type}

/-- A REST frame whose route no handler is registered for raises; no handler runs, nothing is sent. -/
theorem rest_unrouted (env : Ext σ H) (ch : Choice) (s : Host σ) {frame : Bytes} {ctx : ThreadContext}
    {f : List String} {id : Int} {hs cp : Bool} {r : ExtensionRestRequest} {m : RestMethod}
    (h : RequestFrame frame ctx f r.writeTo "internal:extensions/restexecuteonextensiontaction" id hs cp)
    (hr : RequestOK r) (hm : r.method = some m)
    (hroute : env.registry.dispatch (m.name ++ " " ++ r.path) = none) (trailing : Bytes) :
    onInput env ch s (frame ++ trailing) = ({ s with ids := s.ids + 2 }, .error .exception) := by
  obtain ⟨_, _, req, q1, q2, q3, q4, q5, q6, q7, q8, _, q10⟩ := frame_parses h trailing
  rw [onInput_request q1]
  unfold handleRequest
  rw [if_neg (by rw [q10]; decide +kernel), if_pos q10]
  unfold handleRest
  have hread := (rt_restRequest hr {}).2 trailing
  rw [hread]
  simp only [hm]
  unfold Registry.handle
  rw [hroute]

/-- A REST frame whose handler raises: nothing is sent; what the handler did to its state stays. -/
theorem rest_raises (env : Ext σ H) (ch : Choice) (s : Host σ) {frame : Bytes} {ctx : ThreadContext}
    {f : List String} {id : Int} {hs cp : Bool} {r : ExtensionRestRequest} {m : RestMethod} {hd : H} {x : σ} {e : Err}
    (h : RequestFrame frame ctx f r.writeTo "internal:extensions/restexecuteonextensiontaction" id hs cp)
    (hr : RequestOK r) (hm : r.method = some m)
    (hroute : env.registry.dispatch (m.name ++ " " ++ r.path) = some hd)
    (hrun : env.run hd s.ext { r with consumed_params := [], content_consumed := false } = (x, .error e))
    (trailing : Bytes) :
    onInput env ch s (frame ++ trailing) = ({ s with ids := s.ids + 2, ext := x }, .error e) := by
  obtain ⟨_, _, req, q1, q2, q3, q4, q5, q6, q7, q8, _, q10⟩ := frame_parses h trailing
  rw [onInput_request q1]
  unfold handleRequest
  rw [if_neg (by rw [q10]; decide +kernel), if_pos q10]
  unfold handleRest
  have hread := (rt_restRequest hr {}).2 trailing
  have he : (if r.media_type = "" then ({} : ExtensionRestRequest).media_type else r.media_type) = r.media_type := by
    split
    · next h => rw [h]
    · rfl
  rw [hread]
  simp only [hm, he]
  unfold Registry.handle
  rw [hroute]
  simp only
  rw [← hm]
  rw [hrun]

/-! ## The hello sample -/

/-- C73: the hello extension can be constructed, and advertises its two routes. -/
theorem C73_constructed (depth : Nat) : ∃ env, Hello.extension depth = .ok env ∧
    env.name = "hello-world-py" ∧ env.interfaces = ["Extension", "ActionExtension"] ∧
    env.registry.named_routes = ["GET /hello greeting", "GET /hello/{name} personal_greeting"] :=
  ⟨_, rfl, rfl, rfl, rfl⟩

theorem hello_dispatch {depth : Nat} {env : Ext Unit Unit} (he : Hello.extension depth = .ok env)
    (m : RestMethod) (path : String) :
    (env.registry.dispatch (m.name ++ " " ++ path) = some () ↔ m = .GET ∧ HelloPath path) := by
  unfold Hello.extension at he
  cases hb : Registry.build ⟨[], []⟩ Hello.handlers with
  | error e => rw [hb] at he; cases he
  | ok reg =>
    rw [hb] at he
    cases he
    have h1 : ∀ m path, ForRoute ⟨.GET, "/hello", "greeting"⟩ m path ↔ RestMethod.GET = m ∧ path = "/hello" := by
      intro m path
      rw [C72_template _ [.text "/hello".toList] (by decide +kernel) (by decide +kernel)]
      refine and_congr_right fun _ => ⟨fun h => ?_, fun h => ?_⟩
      · generalize hl : path.toList = l at h
        cases h with
        | text _ h' => cases h'; exact String.toList_inj.1 (by simpa using hl)
      · rw [h]; exact Spec.Fills.text "/hello".toList .nil
    have h2 : ∀ m path, ForRoute ⟨.GET, "/hello/{name}", "personal_greeting"⟩ m path ↔
        RestMethod.GET = m ∧ ∃ rest, path = "/hello/" ++ rest := by
      intro m path
      rw [C72_template _ [.text "/hello/".toList, .placeholder "name".toList] (by decide +kernel) (by decide +kernel)]
      refine and_congr_right fun _ => ⟨fun h => ?_, fun h => ?_⟩
      · generalize hl : path.toList = l at h
        cases h with
        | text _ h' =>
          cases h' with
          | placeholder _ v h'' =>
            cases h''
            refine ⟨String.ofList v, String.toList_inj.1 ?_⟩
            simpa using hl
      · obtain ⟨rest, rfl⟩ := h
        have := Spec.Fills.text "/hello/".toList (Spec.Fills.placeholder "name".toList rest.toList Spec.Fills.nil)
        simpa using this
    have hd := C72_own_routes hb m path
    constructor
    · intro h
      obtain ⟨routes, r, hr1, hr2, hf⟩ := hd.1 () h
      simp only [Hello.handlers, List.mem_singleton, Prod.mk.injEq, true_and] at hr1
      subst hr1
      simp only [Hello.routes, List.mem_cons, List.not_mem_nil, or_false] at hr2
      rcases hr2 with rfl | rfl
      · obtain ⟨e, hp⟩ := (h1 _ _).1 hf; exact ⟨e.symm, .inl hp⟩
      · obtain ⟨e, hp⟩ := (h2 _ _).1 hf; exact ⟨e.symm, .inr hp⟩
    · rintro ⟨rfl, hp⟩
      suffices h : ∃ h, reg.dispatch (RestMethod.GET.name ++ " " ++ path) = some h by
        obtain ⟨⟨⟩, h⟩ := h; exact h
      apply hd.2
      rcases hp with hp | hp
      · exact ⟨_, List.mem_singleton.2 rfl, _, by simp [Hello.routes], (h1 _ _).2 ⟨rfl, hp⟩⟩
      · exact ⟨((), Hello.routes), List.mem_singleton.2 rfl, ⟨.GET, "/hello/{name}", "personal_greeting"⟩,
          by simp [Hello.routes], (h2 _ _).2 ⟨rfl, hp⟩⟩

/-- C73: every well-formed `GET /hello` or `GET /hello/...` frame (whatever text follows, whatever the
parameters) is answered with status OK, plain text, the greeting of the `name` parameter, and `name`
reported as consumed; nothing of the host changes but the id counter. -/
theorem C73_hello {depth : Nat} {env : Ext Unit Unit} (he : Hello.extension depth = .ok env)
    (ch : Choice) (s : Host Unit) {frame : Bytes} {ctx : ThreadContext}
    {f : List String} {id : Int} {hs cp : Bool} {r : ExtensionRestRequest}
    (h : RequestFrame frame ctx f r.writeTo "internal:extensions/restexecuteonextensiontaction" id hs cp)
    (hr : RequestOK r) (hm : r.method = some .GET) (hp : HelloPath r.path)
    (hfits : ctx.size + (utf8 (greeting r.params)).length < 2 ^ 31 - 1000) (trailing : Bytes) :
    ∃ out body, onInput env ch s (frame ++ trailing) = ({ s with ids := s.ids + 2 }, .ok (some out)) ∧
      ReplyIs out id hs cp ctx body ∧
      RestExecuteOnExtensionResponse.readFrom body =
        .ok (⟨some .OK, "text/plain; charset=UTF-8", utf8 (greeting r.params), [], ["name"], false⟩, []) := by
  have hroute := (hello_dispatch he .GET r.path).2 ⟨rfl, hp⟩
  have hrun : env.run () s.ext { r with consumed_params := [], content_consumed := false } =
      (s.ext, .ok ⟨some .OK, utf8 (greeting r.params), TEXT_CONTENT_TYPE, [], ["name"], false⟩) := by
    unfold Hello.extension at he
    cases hb : Registry.build ⟨[], []⟩ Hello.handlers with
    | error e => rw [hb] at he; cases he
    | ok reg =>
      rw [hb] at he
      cases he
      simp only [Hello.handleRequest, ExtensionRestRequest.param, ExtensionRestResponse.new, greeting, get_contains]
      rfl
  have hfacts := answer_facts ch (content := utf8 (greeting r.params)) (ct := TEXT_CONTENT_TYPE) (ps := ["name"])
    (cc := false) (.inl rfl) (.inr (.inl rfl)) (by omega)
  obtain ⟨out, body, d, o1, o2, o3, o4, o5, o6, o7, o8, o9⟩ :=
    C38_rest env ch s h hr hm hroute hrun hfacts.1 (by have := hfacts.2; omega) trailing
  refine ⟨out, body, o1, o2, ?_⟩
  rw [o3]
  obtain ⟨d1, d2, d3, d4, d5, d6⟩ := d
  simp only at o4 o5 o6 o7 o8 o9
  rw [List.perm_singleton.1 o8, o4, o5, o6, o7, o9]
  rfl

/-- C73, the rest: any other method or path raises and nothing is sent. -/
theorem C73_others {depth : Nat} {env : Ext Unit Unit} (he : Hello.extension depth = .ok env)
    (ch : Choice) (s : Host Unit) {frame : Bytes} {ctx : ThreadContext}
    {f : List String} {id : Int} {hs cp : Bool} {r : ExtensionRestRequest} {m : RestMethod}
    (h : RequestFrame frame ctx f r.writeTo "internal:extensions/restexecuteonextensiontaction" id hs cp)
    (hr : RequestOK r) (hm : r.method = some m) (hp : ¬ (m = .GET ∧ HelloPath r.path)) (trailing : Bytes) :
    onInput env ch s (frame ++ trailing) = ({ s with ids := s.ids + 2 }, .error .exception) := by
  refine rest_unrouted env ch s h hr hm ?_ trailing
  cases hd : env.registry.dispatch (m.name ++ " " ++ r.path) with
  | none => rfl
  | some u => exact absurd ((hello_dispatch he m r.path).1 hd) hp

example := C73_others (depth := 3) rfl sampleChoice { ext := () } sampleLostFrame_ok sampleLost_ok rfl (by
  rintro ⟨-, h | ⟨rest, h⟩⟩
  · exact absurd h (by decide +kernel)
  · exact absurd (congrArg (fun s => s.toList.take 4) h) (by rw [String.toList_append]; simp [sampleLost])) [1]

/-- The sample REST frame is a request for `/hello/Ann`. -/
example : RequestFrame sampleRestFrame sampleCtx ["f"] sampleRest.writeTo
      "internal:extensions/restexecuteonextensiontaction" 12 false false ∧
    RequestOK sampleRest ∧ sampleRest.method = some .GET ∧ HelloPath sampleRest.path ∧
    sampleCtx.size + (utf8 (greeting sampleRest.params)).length < 2 ^ 31 - 1000 ∧
    greeting sampleRest.params = "Hello from Python! 👋\n" ∧ greeting [("name", "Ann")] = "Hello Ann! 👋\n" :=
  ⟨sampleRestFrame_ok, sampleRest_ok, rfl, .inr ⟨"Ann", by decide +kernel⟩, by decide +kernel, by decide +kernel,
    by decide +kernel⟩

/-! ## The CRUD sample -/

theorem C74_constructed (client : Crud.Client σ) (depth : Nat) : ∃ env, Crud.extension client depth = .ok env ∧
    env.name = "crud-py" ∧ env.interfaces = ["Extension", "ActionExtension"] ∧
    env.registry.named_routes =
      ["POST /crud crud_post", "GET /crud crud_get", "PUT /crud crud_put", "DELETE /crud crud_delete"] :=
  ⟨_, rfl, rfl, rfl, rfl⟩

theorem crud_dispatch {client : Crud.Client σ} {depth : Nat} {env : Ext σ Unit}
    (he : Crud.extension client depth = .ok env) (m : RestMethod) (path : String) :
    (env.registry.dispatch (m.name ++ " " ++ path) = some () ↔
      (m = .POST ∨ m = .GET ∨ m = .PUT ∨ m = .DELETE) ∧ path = "/crud") := by
  unfold Crud.extension at he
  cases hb : Registry.build ⟨[], []⟩ Crud.handlers with
  | error e => rw [hb] at he; cases he
  | ok reg =>
    rw [hb] at he
    cases he
    have h1 : ∀ m0 n m path, ForRoute ⟨m0, "/crud", n⟩ m path ↔ m0 = m ∧ path = "/crud" := by
      intro m0 n m path
      rw [C72_template _ [.text "/crud".toList] (by decide +kernel) (show "/crud" = _ by decide +kernel)]
      refine and_congr_right fun _ => ⟨fun h => ?_, fun h => ?_⟩
      · generalize hl : path.toList = l at h
        cases h with
        | text _ h' => cases h'; exact String.toList_inj.1 (by simpa using hl)
      · rw [h]; exact Spec.Fills.text "/crud".toList .nil
    have hd := C72_own_routes hb m path
    constructor
    · intro h
      obtain ⟨routes, r, hr1, hr2, hf⟩ := hd.1 () h
      simp only [Crud.handlers, List.mem_singleton, Prod.mk.injEq, true_and] at hr1
      subst hr1
      simp only [Crud.routes, List.mem_cons, List.not_mem_nil, or_false] at hr2
      rcases hr2 with rfl | rfl | rfl | rfl <;>
      · obtain ⟨rfl, hp⟩ := (h1 _ _ _ _).1 hf
        exact ⟨by simp, hp⟩
    · rintro ⟨hm, hp⟩
      suffices h : ∃ h, reg.dispatch (m.name ++ " " ++ path) = some h by
        obtain ⟨⟨⟩, h⟩ := h; exact h
      apply hd.2
      refine ⟨((), Crud.routes), List.mem_singleton.2 rfl, ?_⟩
      rcases hm with rfl | rfl | rfl | rfl
      · exact ⟨⟨.POST, "/crud", "crud_post"⟩, by simp [Crud.routes], (h1 _ _ _ _).2 ⟨rfl, hp⟩⟩
      · exact ⟨⟨.GET, "/crud", "crud_get"⟩, by simp [Crud.routes], (h1 _ _ _ _).2 ⟨rfl, hp⟩⟩
      · exact ⟨⟨.PUT, "/crud", "crud_put"⟩, by simp [Crud.routes], (h1 _ _ _ _).2 ⟨rfl, hp⟩⟩
      · exact ⟨⟨.DELETE, "/crud", "crud_delete"⟩, by simp [Crud.routes], (h1 _ _ _ _).2 ⟨rfl, hp⟩⟩

theorem crud_run {client : Crud.Client σ} {depth : Nat} {env : Ext σ Unit}
    (he : Crud.extension client depth = .ok env) (s : σ) {r : ExtensionRestRequest} {m : RestMethod}
    (hm : r.method = some m) {a : σ × Except Err String} (ha : crudCall client s r m = some a) :
    env.run () s { r with consumed_params := [], content_consumed := false } =
      (a.1, a.2.map fun text => ⟨some .OK, utf8 text, JSON_CONTENT_TYPE, [], (crudConsumes m).1, (crudConsumes m).2⟩) := by
  unfold Crud.extension at he
  cases hb : Registry.build ⟨[], []⟩ Crud.handlers with
  | error e => rw [hb] at he; cases he
  | ok reg =>
    rw [hb] at he
    cases he
    have hget : ∀ k, (if r.params.contains k = true then r.params.get? k else none) = r.params.get? k := by
      exact get_contains _
    cases m <;> simp only [crudCall, reduceCtorEq, Option.some.injEq] at ha <;> subst ha <;>
      simp only [Crud.handleRequest, hm, ExtensionRestRequest.content, ExtensionRestRequest.param, hget, crudConsumes]
    · cases hc : client.search s (r.params.get? "q") with
      | mk x y => cases y <;> rfl
    · cases hc : client.index s r.content_ none with
      | mk x y => cases y <;> rfl
    · cases hc : client.index s r.content_ (r.params.get? "id") with
      | mk x y => cases y <;> rfl
    · cases hc : client.delete s (r.params.get? "id") with
      | mk x y => cases y <;> rfl

/-- C74: every well-formed POST, GET, PUT or DELETE frame for `/crud` makes exactly the documented call
of the client, with the request's content and parameters; if the client answers, the reply is that
answer with status OK and the JSON content type, reporting the parameters and the content the method
used; if the client raises, nothing is sent. -/
theorem C74_crud {client : Crud.Client σ} {depth : Nat} {env : Ext σ Unit}
    (he : Crud.extension client depth = .ok env)
    (ch : Choice) (s : Host σ) {frame : Bytes} {ctx : ThreadContext}
    {f : List String} {id : Int} {hs cp : Bool} {r : ExtensionRestRequest} {m : RestMethod} {x : σ} {a : Except Err String}
    (h : RequestFrame frame ctx f r.writeTo "internal:extensions/restexecuteonextensiontaction" id hs cp)
    (hr : RequestOK r) (hm : r.method = some m) (hp : r.path = "/crud")
    (hcall : crudCall client s.ext r m = some (x, a))
    (hfits : ∀ text, a = .ok text → ctx.size + (utf8 text).length < 2 ^ 31 - 1000) (trailing : Bytes) :
    (∀ e, a = .error e →
      onInput env ch s (frame ++ trailing) = ({ s with ids := s.ids + 2, ext := x }, .error e)) ∧
    (∀ text, a = .ok text → ∃ out body,
      onInput env ch s (frame ++ trailing) = ({ s with ids := s.ids + 2, ext := x }, .ok (some out)) ∧
      ReplyIs out id hs cp ctx body ∧
      RestExecuteOnExtensionResponse.readFrom body =
        .ok (⟨some .OK, "application/json; charset=UTF-8", utf8 text, [], (crudConsumes m).1, (crudConsumes m).2⟩, [])) := by
  have hm4 : m = .POST ∨ m = .GET ∨ m = .PUT ∨ m = .DELETE := by
    cases m <;> simp [crudCall] at hcall ⊢
  have hroute := (crud_dispatch he m r.path).2 ⟨hm4, hp⟩
  have hrun := crud_run he s.ext hm hcall
  constructor
  · rintro e rfl
    exact rest_raises env ch s h hr hm hroute hrun trailing
  · rintro text rfl
    have hfit := hfits text rfl
    have hps : (crudConsumes m).1.length ≤ 1 := by cases m <;> simp [crudConsumes]
    have hfacts := answer_facts ch (content := utf8 text) (ct := JSON_CONTENT_TYPE) (ps := (crudConsumes m).1)
      (cc := (crudConsumes m).2) (.inr rfl)
      (by rcases hm4 with rfl | rfl | rfl | rfl <;> simp [crudConsumes]) (by omega)
    obtain ⟨out, body, d, o1, o2, o3, o4, o5, o6, o7, o8, o9⟩ :=
      C38_rest env ch s h hr hm hroute hrun hfacts.1 (by have := hfacts.2; simp only; omega) trailing
    refine ⟨out, body, o1, o2, ?_⟩
    rw [o3]
    obtain ⟨d1, d2, d3, d4, d5, d6⟩ := d
    simp only at o4 o5 o6 o7 o8 o9
    have o8' : d5 = (crudConsumes m).1 := by
      rcases hm4 with rfl | rfl | rfl | rfl
      · exact List.perm_nil.1 o8
      · exact List.perm_singleton.1 o8
      · exact List.perm_singleton.1 o8
      · exact List.perm_singleton.1 o8
    rw [o8', o4, o5, o6, o7, o9]
    rfl

/-- C74, the rest: any other method or path raises without calling the client, and nothing is sent; so
the handler's last branch, which would raise an AttributeError, is never taken. -/
theorem C74_others {client : Crud.Client σ} {depth : Nat} {env : Ext σ Unit}
    (he : Crud.extension client depth = .ok env)
    (ch : Choice) (s : Host σ) {frame : Bytes} {ctx : ThreadContext}
    {f : List String} {id : Int} {hs cp : Bool} {r : ExtensionRestRequest} {m : RestMethod}
    (h : RequestFrame frame ctx f r.writeTo "internal:extensions/restexecuteonextensiontaction" id hs cp)
    (hr : RequestOK r) (hm : r.method = some m)
    (hp : ¬ ((m = .POST ∨ m = .GET ∨ m = .PUT ∨ m = .DELETE) ∧ r.path = "/crud")) (trailing : Bytes) :
    onInput env ch s (frame ++ trailing) = ({ s with ids := s.ids + 2 }, .error .exception) := by
  refine rest_unrouted env ch s h hr hm ?_ trailing
  cases hd : env.registry.dispatch (m.name ++ " " ++ r.path) with
  | none => rfl
  | some u => exact absurd ((crud_dispatch he m r.path).1 hd) hp

/-- A client that keeps a list of documents, and a request it serves. -/
def sampleClient : Crud.Client (List Bytes) where
  index s body _ := (s ++ [body], .ok "{\"result\": \"created\"}")
  search s _ := (s, .ok "{\"hits\": []}")
  delete s _ := (s.dropLast, .error .exception)

def samplePost : ExtensionRestRequest := { sampleRest with method := some .POST, path := "/crud" }

example : RequestFrame (sampleFrame samplePost.writeTo "internal:extensions/restexecuteonextensiontaction" 12)
      sampleCtx ["f"] samplePost.writeTo "internal:extensions/restexecuteonextensiontaction" 12 false false ∧
    RequestOK samplePost ∧
    crudCall sampleClient [] samplePost .POST = some ([[1, 2, 3]], .ok "{\"result\": \"created\"}") ∧
    sampleCtx.size + (utf8 "{\"result\": \"created\"}").length < 2 ^ 31 - 1000 := by
  refine ⟨⟨sampleOrder, Version.new 2070099, 0, 0, _, rfl, rfl, by decide +kernel, by decide +kernel,
    by decide +kernel, by decide +kernel, by decide +kernel, by decide +kernel⟩, ?_, rfl, by decide +kernel⟩
  constructor <;> decide +kernel

theorem hello_builds : ∃ env, Hello.extension 3 = .ok env := ⟨_, rfl⟩
theorem crud_builds : ∃ env, Crud.extension sampleClient 3 = .ok env := ⟨_, rfl⟩
example := C73_hello (depth := 3) rfl sampleChoice { ext := () } sampleRestFrame_ok sampleRest_ok rfl
  (.inr ⟨"Ann", by decide +kernel⟩) (by decide +kernel) [1, 2]
theorem samplePost_frame : RequestFrame (sampleFrame samplePost.writeTo "internal:extensions/restexecuteonextensiontaction" 12)
    sampleCtx ["f"] samplePost.writeTo "internal:extensions/restexecuteonextensiontaction" 12 false false :=
  ⟨sampleOrder, Version.new 2070099, 0, 0, _, rfl, rfl, by decide +kernel, by decide +kernel,
    by decide +kernel, by decide +kernel, by decide +kernel, by decide +kernel⟩
example := C74_crud (client := sampleClient) (depth := 3) rfl sampleChoice { ext := [] } samplePost_frame
  (by constructor <;> decide +kernel) (m := .POST) rfl rfl (x := [[1, 2, 3]]) (a := .ok "{\"result\": \"created\"}") rfl
  (fun text h => by cases h; decide +kernel) []

example := C74_others (client := sampleClient) (depth := 3) rfl sampleChoice { ext := [] } sampleRestFrame_ok sampleRest_ok rfl
  (by decide +kernel) [1]

end Verif
