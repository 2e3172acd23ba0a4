import Verif.Props.Requests
import Verif.Props.Decoding
import Verif.Lemmas.HostState
import Verif.Model.Server
/-!
# C94: a handler sees the whole request
-/

namespace Verif
open Py StreamInput StreamOutput

variable {σ H : Type}

/-- A well-formed request frame is a head and its body, and the head followed by any other body is read as the same request
with that body. -/
theorem frame_body {frame : Bytes} {ctx : ThreadContext} {f : List String} {w : W} {a : String} {id : Int}
    {hs cp : Bool} (h : RequestFrame frame ctx f w a id hs cp) :
    ∃ pre req, frame = pre ++ w.out ∧ (∀ body, IsRequest (pre ++ body) req body) ∧ CtxOK req.ctx ∧
      req.tcp_header.request_id = id ∧ (-(2 ^ 63) ≤ id ∧ id < 2 ^ 63 ∧ id ≠ 0) ∧
      req.tcp_header.isHandshake = hs ∧ req.tcp_header.isCompress = cp ∧ SameContext req.ctx ctx ∧
      req.action = a := by
  obtain ⟨_, _, req, ⟨⟨ids, ids', blank, b1, b2⟩, q1⟩, q2, q3, q4, q5, q6, q7, q8, _, q10⟩ := frame_parses h [0]
  obtain ⟨used, e1, e2⟩ := local_request blank none _ _ _ b2
  rw [← List.append_assoc] at e1
  exact ⟨used, req, List.append_cancel_right e1, fun body => ⟨⟨ids, ids', blank, b1, e2 (by simp) body⟩, q1⟩,
    q2, q3, q4, q5, q6, q7, q10⟩

theorem take_append_le {b : Bytes} {k : Nat} : readBytes b.length (b.take k) = .ok (b.take k, []) := by
  unfold readBytes
  rw [if_neg (by omega)]
  simp [take]

/-- What `read_from` makes of a REST request cut within its content. -/
theorem restRequest_cut {r : ExtensionRestRequest} (ok : RequestOK r) (self : ExtensionRestRequest) :
    ∃ a, r.writeTo.out = a ++ (r.content_ ++ ((writeString r.principal_identifier_token).out ++
        (writeEnumOpt r.http_version).out)) ∧
      ∀ k, ExtensionRestRequest.readFrom self (a ++ r.content_.take k) = .ok (
        { r with media_type := if r.media_type = "" then self.media_type else r.media_type,
                 content_ := r.content_.take k, principal_identifier_token := "", http_version := some .HTTP_1_0,
                 consumed_params := self.consumed_params, content_consumed := self.content_consumed }, []) := by
  obtain ⟨t, m, uri, path, ps, hs, mt, c, pit, hv, cp, cc⟩ := r
  obtain ⟨h1, h2, h3, h4, h5, h6, h7, h8, h9, h10⟩ := ok
  obtain ⟨m, rfl⟩ := Option.ne_none_iff_exists'.1 h2
  obtain ⟨hv, rfl⟩ := Option.ne_none_iff_exists'.1 h10
  have r1 := rt_taskId h1
  have r2 := rt_method m
  have r3 := rt_string h3
  have r4 := rt_string h4
  have r5 := rt_stringDict h5
  have r6 := rt_stringArrayDict h6
  have r7 := rt_media h7 self.media_type
  have r8 := rt_arraySize h8
  refine ⟨t.writeTo.out ++ ((writeEnum m).out ++ ((writeString uri).out ++ ((writeString path).out ++
    ((writeStringDict ps).out ++ ((writeStringArrayDict hs).out ++
    ((writeBoolean (decide (0 < mt.length)) ++ (if mt ≠ "" then writeString mt else W.nil)).out ++
    (writeVInt c.length).out)))))), ?_, fun k => ?_⟩
  · unfold ExtensionRestRequest.writeTo
    simp only [writeEnumOpt]
    rw [W.out_append r1.1, W.out_append r2.1, W.out_append r3.1, W.out_append r4.1, W.out_append r5.1,
      W.out_append r6.1, ← W.append_assoc, W.out_append r7.1, W.out_append r8.1,
      W.out_append (show (W.emit c).err = none from rfl),
      W.out_append (rt_string h9).1]
    simp only [List.append_assoc]
    rfl
  · simp only [List.append_assoc]
    unfold ExtensionRestRequest.readFrom
    rw [Reader.bind_ok (r1.2 _), Reader.bind_ok (r2.2 _), Reader.bind_ok (r3.2 _), Reader.bind_ok (r4.2 _),
      Reader.bind_ok (r5.2 _), Reader.bind_ok (r6.2 _), Reader.bind_ok (r7.2 _), Reader.bind_ok (r8.2 _),
      Reader.bind_ok take_append_le]
    rfl

/-- A REST frame cut within its content, in the host. -/
theorem rest_cut (env : Ext σ H) (ch : Choice) (s : Host σ) {frame : Bytes} {ctx : ThreadContext}
    {f : List String} {id : Int} {hs cp : Bool} {r : ExtensionRestRequest} {m : RestMethod} {hd : H}
    (h : RequestFrame frame ctx f r.writeTo "internal:extensions/restexecuteonextensiontaction" id hs cp)
    (hr : RequestOK r) (hm : r.method = some m) (hroute : env.registry.dispatch (m.name ++ " " ++ r.path) = some hd) :
    ∃ pre req, frame = pre ++ (r.content_ ++ ((writeString r.principal_identifier_token).out ++
        (writeEnumOpt r.http_version).out)) ∧ CtxOK req.ctx ∧
      req.tcp_header.request_id = id ∧ (-(2 ^ 63) ≤ id ∧ id < 2 ^ 63 ∧ id ≠ 0) ∧
      req.tcp_header.isHandshake = hs ∧ req.tcp_header.isCompress = cp ∧ SameContext req.ctx ctx ∧
      ∀ k, onInput env ch s (pre ++ r.content_.take k) =
        match env.run hd s.ext { r with content_ := r.content_.take k, principal_identifier_token := "",
                                        http_version := some .HTTP_1_0, consumed_params := [], content_consumed := false } with
        | (x, .error e) => ({ s with ids := s.ids + 2, ext := x }, .error e)
        | (x, .ok resp) => sendReply ch { s with ids := s.ids + 2, ext := x } req (executeResponse ch resp).writeTo := by
  obtain ⟨pre, req, e1, q1, q2, q3, q4, q5, q6, q7, q10⟩ := frame_body h
  obtain ⟨a, a1, a2⟩ := restRequest_cut hr {}
  refine ⟨pre ++ a, req, by rw [e1, a1, List.append_assoc], q2, q3, q4, q5, q6, q7, fun k => ?_⟩
  have he : (if r.media_type = "" then ({} : ExtensionRestRequest).media_type else r.media_type) = r.media_type := by
    split
    · next h => rw [h]
    · rfl
  rw [List.append_assoc, onInput_request (q1 _)]
  unfold handleRequest
  rw [if_neg (by rw [q10]; decide +kernel), if_pos q10]
  unfold handleRest
  rw [a2 k]
  simp only [hm, he]
  unfold Registry.handle
  rw [hroute]
  simp only
  generalize env.run hd s.ext _ = z
  obtain ⟨x, z⟩ := z
  cases z <;> rfl

/-- C94 is violated, for every REST frame with content, in every host state: a read that ends anywhere within the content makes
the host run the handler at once, with the part of the content that has arrived, an empty principal token and HTTP 1.0, whatever
the peer sent; the peer gets the handler's answer to that request. -/
theorem C94_violated (env : Ext σ H) (ch : Choice) (s : Host σ) {frame : Bytes} {ctx : ThreadContext}
    {f : List String} {id : Int} {hs cp : Bool} {r : ExtensionRestRequest} {m : RestMethod} {hd : H}
    (h : RequestFrame frame ctx f r.writeTo "internal:extensions/restexecuteonextensiontaction" id hs cp)
    (hr : RequestOK r) (hm : r.method = some m) (hroute : env.registry.dispatch (m.name ++ " " ++ r.path) = some hd) :
    ∃ pre tail, frame = pre ++ r.content_ ++ tail ∧ tail ≠ [] ∧
      tail.length = (writeString r.principal_identifier_token).out.length + 1 ∧
      ∀ k, k ≤ r.content_.length → ∀ cut : ExtensionRestRequest,
        cut = { r with content_ := r.content_.take k, principal_identifier_token := "", http_version := some .HTTP_1_0,
                       consumed_params := [], content_consumed := false } →
        (onInput env ch s (pre ++ r.content_.take k)).1.ext = (env.run hd s.ext cut).1 ∧
        ∀ resp, (env.run hd s.ext cut).2 = .ok resp → ResponseOK resp →
          17 + ctx.size + (executeResponse ch resp).writeTo.out.length < 2 ^ 31 →
          ∃ out body d, (onInput env ch s (pre ++ r.content_.take k)).2 = .ok (some out) ∧
            ReplyIs out id hs cp ctx body ∧ RestExecuteOnExtensionResponse.readFrom body = .ok (d, []) ∧
            d.status = resp.status ∧ d.content_type = resp.content_type ∧ d.content = resp.content ∧ d.headers = resp.headers := by
  obtain ⟨pre, req, e1, q2, q3, q4, q5, q6, q7, hon⟩ := rest_cut env ch s h hr hm hroute
  obtain ⟨hv, hv'⟩ := Option.ne_none_iff_exists'.1 hr.http
  have htail : ((writeEnumOpt r.http_version).out).length = 1 := by rw [hv']; cases hv <;> decide
  refine ⟨pre, _, by rw [e1, List.append_assoc], ?_, by rw [List.length_append, htail], ?_⟩
  · intro e
    have := congrArg List.length e
    simp [htail] at this
  rintro k hk cut rfl
  rw [hon k]
  generalize env.run hd s.ext _ = z
  obtain ⟨x, z⟩ := z
  cases z with
  | error e => exact ⟨rfl, by simp⟩
  | ok resp =>
    simp only
    refine ⟨by rw [(sendReply_state ..).1], ?_⟩
    rintro resp' e hresp hfits
    cases e
    have hok : ExecuteOK (executeResponse ch resp) := by
      refine ⟨hresp.status, hresp.content, hresp.content_type, hresp.headers, ?_, ?_⟩
      · show (ch.ho.order resp.consumed_params).length ≤ _
        rw [(ch.ho.perm _).length_eq]; exact hresp.params.1
      · intro y hy
        exact hresp.params.2 y ((ch.ho.perm _).mem_iff.1 hy)
    have hrt := rt_execute hok
    obtain ⟨out, o1, o2⟩ := frame_reply ch { s with ids := s.ids + 2, ext := x } q2 q3 q4 q5 q6 q7 hrt.1 hfits
    exact ⟨out, _, _, by rw [o1], o2, by simpa using hrt.2 [], rfl, rfl, rfl, rfl⟩

example := C94_violated sampleExt sampleChoice sampleHost sampleRestFrame_ok sampleRest_ok (m := .GET) rfl (hd := true)
  (by decide +kernel)

/-- C94 is violated by every REST frame that is too long for one read (of at most 10240 bytes, and of what has arrived): if its
content starts within the first 10240 bytes and does not end there, then the first read, even if it gets as much as it can,
runs the handler with a proper prefix of the content. -/
theorem C94_long_violated (env : Ext σ H) (ch : Choice) (s : Host σ) {frame : Bytes} {ctx : ThreadContext}
    {f : List String} {id : Int} {hs cp : Bool} {r : ExtensionRestRequest} {m : RestMethod} {hd : H}
    (h : RequestFrame frame ctx f r.writeTo "internal:extensions/restexecuteonextensiontaction" id hs cp)
    (hr : RequestOK r) (hm : r.method = some m) (hroute : env.registry.dispatch (m.name ++ " " ++ r.path) = some hd)
    {head : Nat} (hlen : frame.length = head + r.content_.length + ((writeString r.principal_identifier_token).out.length + 1))
    (h1 : head ≤ RECV_LIMIT) (h2 : RECV_LIMIT < head + r.content_.length) :
    ∃ cut : ExtensionRestRequest, (onInput env ch s (frame.take RECV_LIMIT)).1.ext = (env.run hd s.ext cut).1 ∧
      cut.path = r.path ∧ cut.params = r.params ∧ cut.content_ = r.content_.take (RECV_LIMIT - head) ∧
      cut.content_ ≠ r.content_ ∧ cut.principal_identifier_token = "" := by
  obtain ⟨pre, tail, e, _, ht, hon⟩ := C94_violated env ch s h hr hm hroute
  have hl : pre.length = head := by
    have := congrArg List.length e
    simp only [List.length_append] at this
    omega
  have hcut : frame.take RECV_LIMIT = pre ++ r.content_.take (RECV_LIMIT - head) := by
    rw [e, List.append_assoc, List.take_append, hl, List.take_of_length_le (by omega), List.take_append_of_le_length (by omega)]
  have hc := (hon (RECV_LIMIT - head) (by omega) _ rfl).1
  rw [← hcut] at hc
  refine ⟨_, hc, rfl, rfl, rfl, ?_, rfl⟩
  · intro hc
    have := congrArg List.length hc
    simp only [List.length_take] at this
    omega

/-- C94, what holds: if one read gets the whole frame (and perhaps more), the handler is run on exactly the request the peer
sent, with nothing consumed yet, whatever it answers, and the extension's state is what this run leaves. -/
theorem C94_whole_partial (env : Ext σ H) (ch : Choice) (s : Host σ) {frame : Bytes} {ctx : ThreadContext}
    {f : List String} {id : Int} {hs cp : Bool} {r : ExtensionRestRequest} {m : RestMethod} {hd : H}
    (h : RequestFrame frame ctx f r.writeTo "internal:extensions/restexecuteonextensiontaction" id hs cp)
    (hr : RequestOK r) (hm : r.method = some m) (hroute : env.registry.dispatch (m.name ++ " " ++ r.path) = some hd)
    (more : Bytes) :
    (onInput env ch s (frame ++ more)).1.ext =
      (env.run hd s.ext { r with consumed_params := [], content_consumed := false }).1 := by
  obtain ⟨_, _, req, q1, q2, q3, q4, q5, q6, q7, q8, _, q10⟩ := frame_parses h more
  have he : (if r.media_type = "" then ({} : ExtensionRestRequest).media_type else r.media_type) = r.media_type := by
    split
    · next h => rw [h]
    · rfl
  rw [onInput_request q1]
  unfold handleRequest
  rw [if_neg (by rw [q10]; decide +kernel), if_pos q10]
  unfold handleRest
  rw [(rt_restRequest hr {}).2 more]
  simp only [hm, he]
  unfold Registry.handle
  rw [hroute]
  simp only
  rw [← hm]
  generalize env.run hd s.ext _ = z
  obtain ⟨x, z⟩ := z
  cases z with
  | error e => rfl
  | ok resp => simp only; rw [(sendReply_state ..).1]

example := C94_whole_partial sampleExt sampleChoice sampleHost sampleRestFrame_ok sampleRest_ok (m := .GET) rfl (hd := true)
  (by decide +kernel) [1, 2]

/-- C94, for every chunk whatsoever: the extension's own state changes only if the chunk is read as a REST request whose method
and path are dispatched to a handler; then exactly that handler is run, once, on the request as it was read. -/
theorem C94_runs_partial (env : Ext σ H) (ch : Choice) (s : Host σ) (raw : Bytes) :
    (onInput env ch s raw).1.ext = s.ext ∨
    ∃ req body r rest m hd, IsRequest raw req body ∧ req.action = "internal:extensions/restexecuteonextensiontaction" ∧
      ExtensionRestRequest.readFrom {} body = .ok (r, rest) ∧ r.method = some m ∧
      env.registry.dispatch (m.name ++ " " ++ r.path) = some hd ∧
      (onInput env ch s raw).1.ext = (env.run hd s.ext r).1 := by
  rcases onInput_cases env ch s raw with ⟨req, body, hr⟩ | ⟨resp, body, hr⟩ | ⟨n, e, he⟩
  · rw [onInput_request hr]
    by_cases ha : req.action = "internal:extensions/restexecuteonextensiontaction"
    · unfold handleRequest
      rw [if_neg (by rw [ha]; decide +kernel), if_pos ha]
      unfold handleRest
      cases hb : ExtensionRestRequest.readFrom {} body with
      | error e => exact .inl rfl
      | ok p =>
        obtain ⟨r, rest⟩ := p
        cases hm : r.method with
        | none => exact .inl (by simp only [hm])
        | some m =>
          simp only [hm]
          unfold Registry.handle
          cases hd : env.registry.dispatch (m.name ++ " " ++ r.path) with
          | none => exact .inl rfl
          | some hd' =>
            refine .inr ⟨req, body, r, rest, m, hd', hr, ha, hb, hm, hd, ?_⟩
            simp only
            generalize env.run hd' s.ext _ = z
            obtain ⟨x, z⟩ := z
            cases z with
            | error e => rfl
            | ok resp => simp only; rw [(sendReply_state ..).1]
    · refine .inl ?_
      unfold handleRequest
      rw [if_neg ha]
      split
      · cases hb : InitializeExtensionRequest.readFrom body with
        | error e => unfold handleInit; rw [hb]
        | ok p =>
          obtain ⟨m, rest⟩ := p
          obtain ⟨response, sreq, rreq, i, hi, h1, h2, h3, h4⟩ :=
            handleInit_ok env ch { s with ids := s.ids + 2 } req hb
          rw [h4]
      · split
        · unfold handleTcpHandshake
          split
          · rfl
          · rw [(sendReply_state ..).1]
        · split
          · unfold handleTransportHandshake
            split
            · rfl
            · rw [(sendReply_state ..).1]
          · unfold handleNotFound
            rw [(sendReply_state ..).1]
  · refine .inl ?_
    rw [onInput_response hr]
    cases he : resp.tcp_header.isError with
    | true => rfl
    | false =>
      simp only [Bool.false_eq_true, if_false]
      obtain ⟨d, hd⟩ := handleResponse_state env ch { s with ids := s.ids + 2 } resp body
      rw [hd]
  · exact .inl (by rw [he])

/-! ## Cases that meet the hypotheses -/

/-- C94: the sample REST frame is dispatched to a handler, which runs on the whole request and on the cut one. -/
example : RequestFrame sampleRestFrame sampleCtx ["f"] sampleRest.writeTo
      "internal:extensions/restexecuteonextensiontaction" 12 false false ∧ RequestOK sampleRest ∧
    sampleRest.method = some .GET ∧ sampleExt.registry.dispatch ("GET" ++ " " ++ sampleRest.path) = some true :=
  ⟨sampleRestFrame_ok, sampleRest_ok, rfl, by decide +kernel⟩

/-- C94: cut after the first byte of the content, the sample frame makes the handler answer on `[1]`. -/
example : sampleExt.run true 0 { sampleRest with content_ := [1], http_version := some .HTTP_1_0 } =
    (1, .ok (ExtensionRestResponse.new (some { sampleRest with content_ := [1], http_version := some .HTTP_1_0 })
      (some .OK) [1, 33])) := rfl

/-- A request with 11000 bytes of content. -/
def longRest : ExtensionRestRequest := { sampleRest with content_ := List.replicate 11000 7 }

/-- C94: there are frames too long for one read. -/
example : RequestOK longRest ∧
    ∃ frame head, RequestFrame frame sampleCtx ["f"] longRest.writeTo
      "internal:extensions/restexecuteonextensiontaction" 12 false false ∧
    frame.length = head + longRest.content_.length + ((writeString longRest.principal_identifier_token).out.length + 1) ∧
    head ≤ RECV_LIMIT ∧ RECV_LIMIT < head + longRest.content_.length := by
  refine ⟨by constructor <;> decide +kernel, sampleFrame longRest.writeTo "internal:extensions/restexecuteonextensiontaction" 12,
    (sampleFrame longRest.writeTo "internal:extensions/restexecuteonextensiontaction" 12).length - 11002, ?_, ?_, ?_, ?_⟩
  · have he : longRest.writeTo.err = none := by decide +kernel
    have hl : longRest.writeTo.out.length < 20000 := by decide +kernel
    generalize longRest.writeTo = w at he hl
    obtain ⟨r, hr⟩ := requestNew_of_ok (ctx := some sampleCtx) (f := ["f"]) (ver := .obj (Version.new 2070099))
      (a := "internal:extensions/restexecuteonextensiontaction") (rid := some 12) (hs := false) (cp := false) (ids := 0) he
    refine ⟨sampleOrder, Version.new 2070099, 0, _, r, hr, ?_, by decide +kernel, by decide +kernel, by decide +kernel,
      by decide +kernel, by decide +kernel, ?_⟩
    · unfold sampleFrame; rw [hr]
    · rw [(requestNew_size hr).1]
      have : 17 + sampleCtx.size + (OutboundRequest.variableBytes ["f"]
        "internal:extensions/restexecuteonextensiontaction").out.length < 1000 := by decide +kernel
      omega
  · decide +kernel
  · decide +kernel
  · decide +kernel

theorem longRest_frame : RequestFrame (sampleFrame longRest.writeTo "internal:extensions/restexecuteonextensiontaction" 12)
    sampleCtx ["f"] longRest.writeTo "internal:extensions/restexecuteonextensiontaction" 12 false false := by
  have he : longRest.writeTo.err = none := by decide +kernel
  have hl : longRest.writeTo.out.length < 20000 := by decide +kernel
  generalize longRest.writeTo = w at he hl
  obtain ⟨r, hr⟩ := requestNew_of_ok (ctx := some sampleCtx) (f := ["f"]) (ver := .obj (Version.new 2070099))
    (a := "internal:extensions/restexecuteonextensiontaction") (rid := some 12) (hs := false) (cp := false) (ids := 0) he
  refine ⟨sampleOrder, Version.new 2070099, 0, _, r, hr, ?_, by decide +kernel, by decide +kernel, by decide +kernel,
    by decide +kernel, by decide +kernel, ?_⟩
  · unfold sampleFrame; rw [hr]
  · rw [(requestNew_size hr).1]
    have : 17 + sampleCtx.size + (OutboundRequest.variableBytes ["f"]
      "internal:extensions/restexecuteonextensiontaction").out.length < 1000 := by decide +kernel
    omega

theorem longRest_ok : RequestOK longRest := by constructor <;> decide +kernel

example := C94_long_violated sampleExt sampleChoice sampleHost longRest_frame longRest_ok (m := .GET) rfl (hd := true)
  (by decide +kernel) (head := (sampleFrame longRest.writeTo "internal:extensions/restexecuteonextensiontaction" 12).length - 11002)
  (by decide +kernel) (by decide +kernel) (by decide +kernel)

end Verif
