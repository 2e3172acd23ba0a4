import Verif.Lemmas.Host
import Verif.Props.Base64
import Verif.Lemmas.Sample
/-!
# C36 - C39, C63, C64: replies to requests
-/

namespace Verif
open Py StreamInput StreamOutput

variable {σ H : Type}

/-! ## What the handlers do -/

/-- The three handlers that reply at once, and the not-found handler, either raise before replying
or end in `sendReply` of some message from a state with the same counter. -/
theorem handleRequest_sends (env : Ext σ H) (ch : Choice) (s : Host σ) (req : OutboundRequest) (body : Bytes)
    (ha : req.action ≠ "internal:discovery/extensions") :
    ∃ s1 : Host σ, s1.ids = s.ids ∧ s1.pending = s.pending ∧ s1.init = s.init ∧ s1.settings = s.settings ∧
      ((∃ e, handleRequest env ch s req body = (s1, .error e)) ∨
       ∃ w, handleRequest env ch s req body = sendReply ch s1 req w) := by
  unfold handleRequest
  rw [if_neg ha]
  split
  · unfold handleRest
    split
    · exact ⟨s, rfl, rfl, rfl, rfl, .inl ⟨_, rfl⟩⟩
    · split
      · exact ⟨s, rfl, rfl, rfl, rfl, .inl ⟨_, rfl⟩⟩
      · split
        · rename_i x e _
          exact ⟨{ s with ext := x }, rfl, rfl, rfl, rfl, .inl ⟨_, rfl⟩⟩
        · rename_i x r _
          exact ⟨{ s with ext := x }, rfl, rfl, rfl, rfl, .inr ⟨_, rfl⟩⟩
  · split
    · unfold handleTcpHandshake
      split
      · exact ⟨s, rfl, rfl, rfl, rfl, .inl ⟨_, rfl⟩⟩
      · exact ⟨s, rfl, rfl, rfl, rfl, .inr ⟨_, rfl⟩⟩
    · split
      · unfold handleTransportHandshake
        split
        · exact ⟨s, rfl, rfl, rfl, rfl, .inl ⟨_, rfl⟩⟩
        · exact ⟨s, rfl, rfl, rfl, rfl, .inr ⟨_, rfl⟩⟩
      · exact ⟨s, rfl, rfl, rfl, rfl, .inr ⟨_, rfl⟩⟩

/-! ## C36, C63 -/

/-- C36: whatever the host sends when it gets a request (other than an initialisation, see C44)
with a non-zero id is a non-error response with that request's id, handshake and compress flags
and thread context. -/
theorem C36_reply (env : Ext σ H) (ch : Choice) (s s' : Host σ) (raw : Bytes) (req : OutboundRequest)
    (body out : Bytes) (hr : IsRequest raw req body)
    (ha : req.action ≠ "internal:discovery/extensions") (hid : req.tcp_header.request_id ≠ 0)
    (h : onInput env ch s raw = (s', .ok (some out))) : ∃ rbody, Answers out req rbody := by
  rw [onInput_request hr] at h
  obtain ⟨s1, _, _, _, _, ⟨e, he⟩ | ⟨w, hw⟩⟩ := handleRequest_sends env ch { s with ids := s.ids + 2 } req body ha
  · rw [he] at h; simp at h
  · rw [hw] at h
    have := (sendReply_sent (parsesAsRequest_ok hr.1).2.2 h).2
    have e : chosenId (some req.tcp_header.request_id) s1.ids = req.tcp_header.request_id := by
      unfold chosenId; simp [hid]
    rw [e] at this
    exact ⟨_, this⟩

example := C36_reply sampleExt sampleChoice sampleHost _ sampleRestFrame _ _ _ sampleRest_isRequest (by decide +kernel)
  (by decide +kernel) sampleRest_sends

/-- C36: it never stays silent about such a request without raising. -/
theorem C36_never_silent (env : Ext σ H) (ch : Choice) (s : Host σ) (raw : Bytes) (req : OutboundRequest)
    (body : Bytes) (hr : IsRequest raw req body)
    (ha : req.action ≠ "internal:discovery/extensions") : (onInput env ch s raw).2 ≠ .ok none := by
  rw [onInput_request hr]
  obtain ⟨s1, _, _, _, _, ⟨e, he⟩ | ⟨w, hw⟩⟩ := handleRequest_sends env ch { s with ids := s.ids + 2 } req body ha
  · rw [he]; simp
  · rw [hw]; exact (sendReply_state ch s1 req w).2

example := C36_never_silent sampleExt sampleChoice sampleHost sampleUnknownFrame _ _ sampleUnknown_isRequest
  (by decide +kernel)

/-- C63 is violated, always: the reply to a request with id 0 carries a freshly generated id
instead, which is never 0. -/
theorem C63_violated (env : Ext σ H) (ch : Choice) (s s' : Host σ) (raw : Bytes) (req : OutboundRequest)
    (body out : Bytes) (hr : IsRequest raw req body)
    (ha : req.action ≠ "internal:discovery/extensions") (hid : req.tcp_header.request_id = 0)
    (h : onInput env ch s raw = (s', .ok (some out))) :
    ∃ rbody, ReplyIs out (s.ids + 2) req.tcp_header.isHandshake req.tcp_header.isCompress req.ctx rbody := by
  rw [onInput_request hr] at h
  obtain ⟨s1, e1, _, _, _, ⟨e, he⟩ | ⟨w, hw⟩⟩ := handleRequest_sends env ch { s with ids := s.ids + 2 } req body ha
  · rw [he] at h; simp at h
  · rw [hw] at h
    have := (sendReply_sent (parsesAsRequest_ok hr.1).2.2 h).2
    have e : chosenId (some req.tcp_header.request_id) s1.ids = ((s.ids : Int) + 2) := by
      unfold chosenId; simp [hid, e1]
    rw [e] at this
    exact ⟨_, this⟩

example := C63_violated sampleExt sampleChoice sampleHost _ sampleZeroFrame _ _ _ sampleZero_isRequest (by decide +kernel)
  (by decide +kernel) sampleZero_sends

/-! ## C37, C64, C38: end to end -/

/-- A well-formed frame, as the host decodes it. -/
theorem frame_parses {frame : Bytes} {ctx : ThreadContext} {f : List String} {w : W} {a : String} {id : Int}
    {hs cp : Bool} (h : RequestFrame frame ctx f w a id hs cp) (trailing : Bytes) :
    w.err = none ∧
    17 + ctx.size + (OutboundRequest.variableBytes f a).out.length + w.out.length < 2 ^ 31 ∧
    ∃ req, IsRequest (frame ++ trailing) req (w.out ++ trailing) ∧ CtxOK req.ctx ∧
      req.tcp_header.request_id = id ∧ (-(2 ^ 63) ≤ id ∧ id < 2 ^ 63 ∧ id ≠ 0) ∧
      req.tcp_header.isHandshake = hs ∧ req.tcp_header.isCompress = cp ∧ SameContext req.ctx ctx ∧
      req.ctx.size = ctx.size ∧ req.features = f ∧ req.action = a := by
  obtain ⟨ho, v, ids, ids', r, hnew, rfl, hctx, hf, ha, hv, hid, hsz⟩ := h
  have hch : chosenId (some id) ids = id := by unfold chosenId; simp [hid.2.2]
  obtain ⟨req, q1, q2, q3, q4, q5, q6, q7, _⟩ := request_on_wire ho hnew hctx hf ha hv.1 hv.2
    (by rw [hch]; exact hid.1) (by rw [hch]; exact hid.2.1) hsz trailing
  obtain ⟨hs1, hs2⟩ := requestNew_size hnew
  refine ⟨hs2, by omega, req, q1, (parsesAsRequest_ok q1.1).2.2, by rw [q2, hch], hid, q3, q4, q5,
    q5.size, q6, q7⟩

/-- The reply to a well-formed frame that fits is sent. -/
theorem frame_reply (ch : Choice) (s : Host σ) {req : OutboundRequest} {w : W} {ctx : ThreadContext} {id : Int}
    {hs cp : Bool} (hc : CtxOK req.ctx) (h1 : req.tcp_header.request_id = id)
    (h2 : -(2 ^ 63) ≤ id ∧ id < 2 ^ 63 ∧ id ≠ 0) (h3 : req.tcp_header.isHandshake = hs)
    (h4 : req.tcp_header.isCompress = cp) (h5 : SameContext req.ctx ctx)
    (hw : w.err = none) (hfit : 17 + ctx.size + w.out.length < 2 ^ 31) :
    ∃ out, sendReply ch s req w = (s, .ok (some out)) ∧ ReplyIs out id hs cp ctx w.out := by
  subst h1 h3 h4
  obtain ⟨out, e1, e2⟩ := sendReply_fits ch s hc h2.1 h2.2.1 h2.2.2 hw (by rw [h5.size]; exact hfit)
  exact ⟨out, e1, e2.context h5⟩

theorem variableBytes_length (f : List String) (a : String) :
    (utf8 a).length ≤ (OutboundRequest.variableBytes f a).out.length := by
  unfold OutboundRequest.variableBytes
  rw [W.out_append (by simp)]
  have : (utf8 a).length ≤ (writeString a).out.length := by
    unfold writeString
    simp only
    rw [W.out_append (by simp)]
    split
    · simp
    · simp; omega
  simp only [List.length_append]; omega

theorem versionCurrent_bytes : (HandshakerResponse.writeTo ⟨Version.new Version.CURRENT⟩).out = [0xA3, 0x8E, 0xB7, 0x41] := by
  show (writeVInt ((137217827 : Nat) : Int)).out = _
  rw [writeVInt_nat_out, varint_ge (by decide), varint_ge (by decide), varint_ge (by decide),
    varint_lt (by decide)]
  decide

theorem versionCurrent_length : (writeVersion (Version.new Version.CURRENT)).out.length = 4 := by
  show (writeVInt ((137217827 : Nat) : Int)).out.length = 4
  rw [writeVInt_nat_out, varint_ge (by decide), varint_ge (by decide), varint_ge (by decide),
    varint_lt (by decide)]
  rfl

/-- C37: in every host state, every well-formed `internal:tcp/handshake` frame (any id but 0, thread
context, features, task id and peer version; any bytes behind it) is answered with a frame that
decodes to the same id, flags and context and whose body is the SDK's current version (3.0.0, the four bytes
A3 8E B7 41); the host's state does not change but for the id counter. -/
theorem C37_tcp_handshake (env : Ext σ H) (ch : Choice) (s : Host σ) {frame : Bytes} {ctx : ThreadContext}
    {f : List String} {id : Int} {hs cp : Bool} {task : TaskId} {v : Version}
    (h : RequestFrame frame ctx f (HandshakerRequest.writeTo ⟨task, some v⟩) "internal:tcp/handshake" id hs cp)
    (ht : TaskIdOK task) (hv : VersionOK v) (trailing : Bytes) :
    ∃ out body, onInput env ch s (frame ++ trailing) = ({ s with ids := s.ids + 2 }, .ok (some out)) ∧
      ReplyIs out id hs cp ctx body ∧
      HandshakerResponse.readFrom body = .ok (⟨Version.new 3000099⟩, []) ∧ body = [0xA3, 0x8E, 0xB7, 0x41] := by
  obtain ⟨_, hfit, req, q1, q2, q3, q4, q5, q6, q7, q8, _, q10⟩ := frame_parses h trailing
  have hcur : VersionOK (Version.new Version.CURRENT) := by decide +kernel
  have hrt := rt_handshakerResponse (m := ⟨Version.new Version.CURRENT⟩) hcur
  have hlen : (HandshakerResponse.writeTo ⟨Version.new Version.CURRENT⟩).out.length = 4 := versionCurrent_length
  have ha := variableBytes_length f "internal:tcp/handshake"
  have hal : (utf8 "internal:tcp/handshake").length = 22 := by decide +kernel
  obtain ⟨out, o1, o2⟩ := frame_reply ch { s with ids := s.ids + 2 } q2 q3 q4 q5 q6 q7 hrt.1
    (by rw [hlen]; omega)
  refine ⟨out, _, ?_, o2, by have := hrt.2 []; rw [List.append_nil] at this; exact this, versionCurrent_bytes⟩
  rw [onInput_request q1]
  unfold handleRequest
  rw [if_neg (by rw [q10]; decide +kernel), if_neg (by rw [q10]; decide +kernel), if_pos q10]
  unfold handleTcpHandshake
  rw [(rt_handshakerRequest (m := ⟨task, some v⟩) ht rfl hv).2 trailing]
  exact o1

example := C37_tcp_handshake sampleExt sampleChoice sampleHost sampleTcpFrame_ok (by decide +kernel) (by decide +kernel) [1]

example : ∃ frame, RequestFrame frame { request_headers := [("_system_index_access_allowed", "false")] } ["f"]
    (HandshakerRequest.writeTo ⟨⟨"node", some 7⟩, some (Version.new 3000099)⟩) "internal:tcp/handshake" 3
    true false :=
  ⟨_, idOrder, Version.new 2070099, 0, 0, _, rfl, rfl, by decide +kernel, by decide +kernel, by decide +kernel,
    by decide +kernel, by decide +kernel, by decide +kernel⟩

theorem ephemeralId_ascii (uuid : Bytes) (h : uuid.length = 16) : Ascii (Base64.ephemeralId uuid) := by
  have hall : ∀ c ∈ Base64.alphabet, c.val < 128 := by decide +kernel
  exact fun c hc => hall c ((C62_wellformed uuid h).2.1 c hc)

theorem ephemeralId_length (uuid : Bytes) (h : uuid.length = 16) :
    (utf8 (Base64.ephemeralId uuid)).length = 22 := by
  rw [utf8_length_ascii (ephemeralId_ascii uuid h)]; exact (C62_wellformed uuid h).1

/-- The node in the answer to a transport handshake can be sent. -/
theorem helloWorldNode_ok (ch : Choice) : NodeOK (helloWorldNode ch) := by
  refine ⟨show StrOK "hello-world" by decide +kernel, show StrOK "hello-world" by decide +kernel, ?_,
    show StrOK (dotted (127 * 256 ^ 3 + 1)) by decide +kernel,
    show StrOK (dotted (127 * 256 ^ 3 + 1)) by decide +kernel,
    show AddressOK (TransportAddress.new (127 * 256 ^ 3 + 1) 1234 none) by decide +kernel,
    show StrDictOK [] by decide +kernel, ⟨?_, ?_, ?_⟩,
    show VersionOK (Version.new Version.CURRENT) by decide +kernel⟩
  · show StrOK (Base64.ephemeralId ch.uuid)
    unfold StrOK; rw [ephemeralId_length ch.uuid ch.uuid_len]; decide
  · show ch.roles.length < _
    rw [ch.roles_perm.length_eq]; decide
  · show ch.roles.Nodup
    rw [ch.roles_perm.nodup_iff]; decide +kernel
  · intro r hr
    have : r ∈ [CLUSTER_MANAGER_ROLE, DATA_ROLE, INGEST_ROLE, REMOTE_CLUSTER_CLIENT_ROLE] :=
      ch.roles_perm.mem_iff.1 hr
    clear hr
    revert r
    decide +kernel

theorem writeString_length (s : String) :
    (writeString s).out.length = (varint (utf8 s).length).length + (utf8 s).length := by
  unfold writeString
  simp only
  rw [W.out_append (by simp)]
  split
  · simp
  · next h =>
    have : (utf8 s).length = 0 := by omega
    rw [List.length_append, W.nil_out, writeVInt_nat_out, List.length_nil, this]

theorem append_length_le (a b : W) : (a ++ b).out.length ≤ a.out.length + b.out.length := by
  rw [W.append_def]; unfold W.seq
  split
  · omega
  · simp

/-- How long the body of the answer to a transport handshake is. -/
theorem helloWorldNode_length (ch : Choice) :
    (ServiceHandshakeResponse.writeTo
      ⟨some (helloWorldNode ch), "", Version.new Version.CURRENT⟩).out.length ≤ 200 := by
  have hr : (W.forEach DiscoveryNode.writeRole ch.roles).out.length ≤ 70 := by
    rw [forEach_out_length (by intro x _; simp [DiscoveryNode.writeRole, writeBoolean, writeByte]; cases x.2.2 <;> decide),
      sum_perm (ch.roles_perm.map _)]
    decide +kernel
  have he : (writeString (Base64.ephemeralId ch.uuid)).out.length = 23 := by
    rw [writeString_length, ephemeralId_length ch.uuid ch.uuid_len]; decide +kernel
  have hlen : (writeVInt ch.roles.length).out.length = 1 := by
    rw [ch.roles_perm.length_eq]; decide +kernel
  show (W.out ((writeBoolean true ++ (writeString "hello-world" ++ (writeString "hello-world" ++
      (writeString (Base64.ephemeralId ch.uuid) ++
      (writeString (dotted (127 * 256 ^ 3 + 1)) ++ (writeString (dotted (127 * 256 ^ 3 + 1)) ++
      ((TransportAddress.new (127 * 256 ^ 3 + 1) 1234 none).writeTo ++
      (writeStringDict [] ++ (writeVInt ch.roles.length ++ (W.forEach DiscoveryNode.writeRole ch.roles ++
      writeVersion (Version.new Version.CURRENT))))))))))) ++
      (writeString "" ++ writeVersion (Version.new Version.CURRENT)))).length ≤ 200
  refine (append_length_le _ _).trans ?_
  have step : ∀ {a b : W} {m n : Nat}, a.out.length ≤ m → b.out.length ≤ n → (a ++ b).out.length ≤ m + n :=
    fun h1 h2 => (append_length_le _ _).trans (Nat.add_le_add h1 h2)
  have hv : (writeVersion (Version.new Version.CURRENT)).out.length ≤ 4 := versionCurrent_length.le
  have hh : (writeString "hello-world").out.length ≤ 12 := by decide +kernel
  have hd : (writeString (dotted (127 * 256 ^ 3 + 1))).out.length ≤ 10 := by decide +kernel
  have ha : (TransportAddress.new (127 * 256 ^ 3 + 1) 1234 none).writeTo.out.length ≤ 30 := by decide +kernel
  have hb : (writeBoolean true).out.length ≤ 1 := by decide +kernel
  have hz : (writeStringDict []).out.length ≤ 1 := by decide +kernel
  have hy : (writeString "").out.length ≤ 1 := by decide +kernel
  have := step hb (step hh (step hh (step he.le (step hd (step hd (step ha (step hz (step hlen.le
    (step hr hv)))))))))
  have := step hy hv
  omega

/-- C64: in every host state, every well-formed `internal:transport/handshake` frame is answered
with a frame that decodes to the same id, flags and context, and to the SDK's node (whatever UUID
was drawn and however the set of roles iterates), an empty cluster name and the current version. -/
theorem C64_transport_handshake (env : Ext σ H) (ch : Choice) (s : Host σ) {frame : Bytes} {ctx : ThreadContext}
    {f : List String} {id : Int} {hs cp : Bool} {task : TaskId}
    (h : RequestFrame frame ctx f (ServiceHandshakeRequest.writeTo ⟨task⟩) "internal:transport/handshake" id hs cp)
    (ht : TaskIdOK task) (hsize : ctx.size < 2 ^ 31 - 1000) (trailing : Bytes) :
    ∃ out body node, onInput env ch s (frame ++ trailing) = ({ s with ids := s.ids + 2 }, .ok (some out)) ∧
      ReplyIs out id hs cp ctx body ∧
      ServiceHandshakeResponse.readFrom body = .ok (⟨some node, "", Version.new 3000099⟩, []) ∧
      node.node_name = "hello-world" ∧ node.node_id = "hello-world" ∧
      node.ephemeral_id = Base64.ephemeralId ch.uuid ∧ node.host_name = "127.0.0.1" ∧
      node.address = ⟨0x7F000001, "127.0.0.1", 1234⟩ ∧ node.version = Version.new 3000099 ∧
      node.roles.Perm [⟨"cluster_manager", "m", false⟩, ⟨"data", "d", true⟩, ⟨"ingest", "i", false⟩,
        ⟨"remote_cluster_client", "r", false⟩] := by
  obtain ⟨_, hfit, req, q1, q2, q3, q4, q5, q6, q7, q8, _, q10⟩ := frame_parses h trailing
  have hrt := rt_serviceResponse (m := ⟨some (helloWorldNode ch), "", Version.new Version.CURRENT⟩)
    (fun n hn => by cases hn; exact helloWorldNode_ok ch) (show StrOK "" by decide +kernel)
    (show VersionOK (Version.new Version.CURRENT) by decide +kernel)
  have hlen := helloWorldNode_length ch
  obtain ⟨out, o1, o2⟩ := frame_reply ch { s with ids := s.ids + 2 } q2 q3 q4 q5 q6 q7 hrt.1 (by omega)
  refine ⟨out, _, helloWorldNode ch, ?_, o2, by have := hrt.2 []; rw [List.append_nil] at this; exact this, rfl, rfl, rfl,
    show dotted (127 * 256 ^ 3 + 1) = "127.0.0.1" by decide +kernel,
    show TransportAddress.new (127 * 256 ^ 3 + 1) 1234 none = ⟨0x7F000001, "127.0.0.1", 1234⟩ by decide +kernel,
    rfl, ch.roles_perm⟩
  rw [onInput_request q1]
  unfold handleRequest
  rw [if_neg (by rw [q10]; decide +kernel), if_neg (by rw [q10]; decide +kernel),
    if_neg (by rw [q10]; decide +kernel), if_pos q10]
  unfold handleTransportHandshake
  rw [(rt_serviceRequest (m := ⟨task⟩) ht).2 trailing]
  exact o1

example := C64_transport_handshake sampleExt sampleChoice sampleHost sampleServiceFrame_ok (by decide +kernel)
  (by decide +kernel) [1, 2]

/-- C38: in every host state, a well-formed REST frame whose method and path are dispatched to a
handler `hd` (see C33, C34 for which that is) hands `hd` exactly the request the peer encoded, with
nothing consumed yet; if the handler returns, the answer carries the same id, flags and context and
decodes to exactly the handler's status, content type, content, headers, consumed parameters (as a
set) and content-consumed flag; only the id counter and the handler's own state change. -/
theorem C38_rest (env : Ext σ H) (ch : Choice) (s : Host σ) {frame : Bytes} {ctx : ThreadContext}
    {f : List String} {id : Int} {hs cp : Bool} {r : ExtensionRestRequest} {m : RestMethod} {hd : H} {x : σ}
    {resp : ExtensionRestResponse}
    (h : RequestFrame frame ctx f r.writeTo "internal:extensions/restexecuteonextensiontaction" id hs cp)
    (hr : RequestOK r)
    (hm : r.method = some m) (hroute : env.registry.dispatch (m.name ++ " " ++ r.path) = some hd)
    (hrun : env.run hd s.ext { r with consumed_params := [], content_consumed := false } = (x, .ok resp))
    (hresp : ResponseOK resp)
    (hfits : 17 + ctx.size + (executeResponse ch resp).writeTo.out.length < 2 ^ 31) (trailing : Bytes) :
    ∃ out body d, onInput env ch s (frame ++ trailing) =
        ({ s with ids := s.ids + 2, ext := x }, .ok (some out)) ∧
      ReplyIs out id hs cp ctx body ∧ RestExecuteOnExtensionResponse.readFrom body = .ok (d, []) ∧
      d.status = resp.status ∧ d.content_type = resp.content_type ∧ d.content = resp.content ∧
      d.headers = resp.headers ∧ d.consumed_params.Perm resp.consumed_params ∧
      d.content_consumed = resp.content_consumed := by
  obtain ⟨_, _, req, q1, q2, q3, q4, q5, q6, q7, q8, _, q10⟩ := frame_parses h trailing
  have hok : ExecuteOK (executeResponse ch resp) := by
    refine ⟨hresp.status, hresp.content, hresp.content_type, hresp.headers, ?_, ?_⟩
    · show (ch.ho.order resp.consumed_params).length ≤ _
      rw [(ch.ho.perm _).length_eq]; exact hresp.params.1
    · intro y hy
      exact hresp.params.2 y ((ch.ho.perm _).mem_iff.1 hy)
  have hrt := rt_execute hok
  obtain ⟨out, o1, o2⟩ := frame_reply ch { s with ids := s.ids + 2, ext := x } q2 q3 q4 q5 q6 q7 hrt.1 hfits
  refine ⟨out, _, _, ?_, o2, by simpa using hrt.2 [], rfl, rfl, rfl, rfl, ch.ho.perm _, rfl⟩
  rw [onInput_request q1]
  unfold handleRequest
  rw [if_neg (by rw [q10]; decide +kernel), if_pos q10]
  unfold handleRest
  have hread := (rt_restRequest hr {}).2 trailing
  have he : (if r.media_type = "" then ({} : ExtensionRestRequest).media_type else r.media_type) = r.media_type := by
    split
    · next h => rw [h]
    · rfl
  rw [hread]
  simp only [hm, he]
  unfold Registry.handle
  rw [hroute]
  simp only
  rw [← hm]
  rw [hrun]
  exact o1

example := C38_rest sampleExt sampleChoice sampleHost sampleRestFrame_ok sampleRest_ok (m := .GET) rfl
  (hd := true) (by decide +kernel) rfl

/-! ## C39 -/

/-- The not-found message can be sent, and how long it is. -/
theorem notFound_facts (a : String) (hfits : (utf8 a).length < 2 ^ 31 - 1000) :
    RoundTrips (notFoundResponse a).writeTo RestExecuteOnExtensionResponse.readFrom (notFoundResponse a) ∧
    (notFoundResponse a).writeTo.out.length ≤ 100 + (utf8 a).length := by
  have htext : (utf8 (notFoundText a)).length = 34 + (utf8 a).length := by
    unfold notFoundText
    rw [utf8_append, utf8_append]
    have h1 : (utf8 "{\"error\": \"No handler found for ").length = 32 := by decide +kernel
    have h2 : (utf8 "\"}").length = 2 := by decide +kernel
    simp only [List.length_append, h1, h2]; omega
  have hok : ExecuteOK (notFoundResponse a) :=
    ⟨by simp [notFoundResponse], by simp only [notFoundResponse, htext]; omega, show StrOK JSON_CONTENT_TYPE by decide +kernel,
      show StrsDictOK [] by decide +kernel, show StrsOK [] by decide +kernel⟩
  have hrt := rt_execute hok
  have hlen : (notFoundResponse a).writeTo.out.length ≤
      100 + (utf8 a).length := by
    have step : ∀ {a b : W} {m n : Nat}, a.out.length ≤ m → b.out.length ≤ n → (a ++ b).out.length ≤ m + n :=
      fun h1 h2 => (append_length_le _ _).trans (Nat.add_le_add h1 h2)
    have h1 : (writeEnumOpt (some RestStatus.NOT_FOUND)).out.length ≤ 2 := by
      show (writeVInt (PyEnum.value RestStatus.NOT_FOUND)).out.length ≤ 2
      decide +kernel
    have h2 : (writeString JSON_CONTENT_TYPE).out.length ≤ 40 := by decide +kernel
    have h3 : (writeVInt (utf8 (notFoundText a)).length).out.length ≤ 5 := by
      rw [writeVInt_nat_out]
      exact (varint_length_le 4 _).2 (by rw [htext]; omega)
    have h4 : (W.emit (utf8 (notFoundText a))).out.length ≤ 34 + (utf8 a).length := htext.le
    have h5 : (writeStringArrayDict []).out.length ≤ 1 := by decide +kernel
    have h6 : (writeStringArray []).out.length ≤ 1 := by decide +kernel
    have h7 : (writeBoolean false).out.length ≤ 1 := by decide +kernel
    have := step h1 (step h2 (step h3 (step h4 (step h5 (step h6 h7)))))
    refine Nat.le_trans this ?_
    omega
  exact ⟨hrt, hlen⟩

/-- C39: a request whose action has no handler (not one of the four) is answered with NOT_FOUND, the
JSON content type and a body naming the action, and changes nothing but the id counter. -/
theorem C39_not_found (env : Ext σ H) (ch : Choice) (s : Host σ) (raw : Bytes) (req : OutboundRequest)
    (body : Bytes) (hr : IsRequest raw req body) (hid : req.tcp_header.request_id ≠ 0)
    (ha : req.action ∉ ["internal:discovery/extensions", "internal:extensions/restexecuteonextensiontaction",
      "internal:tcp/handshake", "internal:transport/handshake"])
    (hfits : req.ctx.size + (utf8 req.action).length < 2 ^ 31 - 1000) :
    ∃ out rbody d pre post, onInput env ch s raw = ({ s with ids := s.ids + 2 }, .ok (some out)) ∧
      Answers out req rbody ∧ RestExecuteOnExtensionResponse.readFrom rbody = .ok (d, []) ∧
      d.status = some .NOT_FOUND ∧ d.content_type = "application/json; charset=UTF-8" ∧
      d.content = utf8 (pre ++ req.action ++ post) ∧
      pre = "{\"error\": \"No handler found for " ∧ post = "\"}" := by
  obtain ⟨i1, i2, hc⟩ := parsesAsRequest_ok hr.1
  obtain ⟨hrt, hlen⟩ := notFound_facts req.action (by omega)
  obtain ⟨out, o1, o2⟩ := sendReply_fits ch { s with ids := s.ids + 2 } hc i1 i2 hid hrt.1 (by omega)
  refine ⟨out, _, _, _, _, ?_, o2, by simpa using hrt.2 [], rfl, rfl, rfl, rfl, rfl⟩
  simp only [List.mem_cons, List.not_mem_nil, or_false, not_or] at ha
  rw [onInput_request hr]
  unfold handleRequest
  rw [if_neg ha.1, if_neg ha.2.1, if_neg ha.2.2.1, if_neg ha.2.2.2]
  exact o1

example := C39_not_found sampleExt sampleChoice sampleHost sampleUnknownFrame _ _ sampleUnknown_isRequest
  (by decide +kernel) (by decide +kernel) (by decide +kernel)

/-- C39, without assuming that the reply fits: whatever happens, nothing but the counter changes. -/
theorem C39_state (env : Ext σ H) (ch : Choice) (s : Host σ) (raw : Bytes) (req : OutboundRequest)
    (body : Bytes) (hr : IsRequest raw req body)
    (ha : req.action ∉ ["internal:discovery/extensions", "internal:extensions/restexecuteonextensiontaction",
      "internal:tcp/handshake", "internal:transport/handshake"]) :
    ∃ n, (onInput env ch s raw).1 = { s with ids := n } := by
  simp only [List.mem_cons, List.not_mem_nil, or_false, not_or] at ha
  rw [onInput_request hr]
  unfold handleRequest
  rw [if_neg ha.1, if_neg ha.2.1, if_neg ha.2.2.1, if_neg ha.2.2.2]
  exact ⟨_, (sendReply_state ch { s with ids := s.ids + 2 } req _).1⟩

example := C39_state sampleExt sampleChoice sampleHost _ _ _ sampleUnknown_isRequest (by decide +kernel)

/-! ## Cases that meet the hypotheses -/

example : sampleRest.method = some .GET ∧
    sampleExt.registry.dispatch ("GET" ++ " " ++ sampleRest.path) = some true ∧
    sampleExt.run true 0 sampleRest = (1, .ok (ExtensionRestResponse.new (some sampleRest) (some .OK) [1, 2, 3, 33])) :=
  ⟨rfl, by decide +kernel, rfl⟩

/-- C36: in the sample host the REST request is answered, and the handler has run once. -/
example : ∃ req body, IsRequest sampleRestFrame req body ∧ req.action ≠ "internal:discovery/extensions" ∧
    req.tcp_header.request_id = 12 ∧
    ∃ out, onInput sampleExt sampleChoice sampleHost sampleRestFrame
      = ({ sampleHost with ids := 2, ext := 1 }, .ok (some out)) := by
  obtain ⟨_, _, req, q1, _, q3, _, _, _, _, _, _, q10⟩ := frame_parses sampleRestFrame_ok []
  rw [List.append_nil] at q1
  refine ⟨req, _, q1, by rw [q10]; decide +kernel, q3, ?_⟩
  obtain ⟨out, _, _, o, _⟩ := C38_rest sampleExt sampleChoice sampleHost sampleRestFrame_ok sampleRest_ok rfl
    (hd := true) (by decide +kernel) (x := 1)
    (resp := ExtensionRestResponse.new (some sampleRest) (some .OK) [1, 2, 3, 33]) rfl
    sampleRestAnswer_ok (by decide +kernel) []
  rw [List.append_nil] at o
  exact ⟨out, o⟩

/-- C64: a transport handshake frame. -/
example : RequestFrame (sampleFrame (ServiceHandshakeRequest.writeTo ⟨⟨"n", some 3⟩⟩) "internal:transport/handshake" 7)
    sampleCtx ["f"] (ServiceHandshakeRequest.writeTo ⟨⟨"n", some 3⟩⟩) "internal:transport/handshake" 7 false false ∧
    TaskIdOK ⟨"n", some 3⟩ ∧ sampleCtx.size < 2 ^ 31 - 1000 :=
  ⟨⟨sampleOrder, Version.new 2070099, 0, 0, _, rfl, rfl, by decide +kernel, by decide +kernel, by decide +kernel,
    by decide +kernel, by decide +kernel, by decide +kernel⟩, by decide +kernel, by decide +kernel⟩

/-- C39: a request nobody handles. -/
example : ∃ req body, IsRequest (sampleFrame (W.emit [1, 2]) "internal:unknown" 8) req body ∧
    req.tcp_header.request_id ≠ 0 ∧ req.action = "internal:unknown" ∧
    req.ctx.size + (utf8 req.action).length < 2 ^ 31 - 1000 := by
  have h : RequestFrame (sampleFrame (W.emit [1, 2]) "internal:unknown" 8) sampleCtx ["f"] (W.emit [1, 2])
      "internal:unknown" 8 false false :=
    ⟨sampleOrder, Version.new 2070099, 0, 0, _, rfl, rfl, by decide +kernel, by decide +kernel, by decide +kernel,
      by decide +kernel, by decide +kernel, by decide +kernel⟩
  obtain ⟨_, _, req, q1, _, q3, _, _, _, _, q8, _, q10⟩ := frame_parses h []
  rw [List.append_nil] at q1
  refine ⟨req, _, q1, by rw [q3]; decide, q10, ?_⟩
  rw [q8, q10]; decide +kernel

end Verif
