import Verif.Lemmas.HostInv
import Verif.Lemmas.Sample
/-!
# C41, C42, C43, C51: framing
-/

namespace Verif
open Py StreamInput StreamOutput

variable {σ H : Type}

/-- Reading a header never fails; missing bytes read as zeros. -/
theorem header_read (raw : Bytes) : TcpHeader.readFrom raw = .ok
    (⟨raw.take 2, fromBytesSigned ((raw.drop 6).take 8), fromBytesSigned ((raw.drop 14).take 1),
      .obj (Version.fromBytes ((raw.drop 15).take 4)), fromBytesSigned ((raw.drop 2).take 4),
      fromBytesSigned ((raw.drop 19).take 4)⟩, raw.drop 23) := by
  have e : TcpHeader.readFrom raw = .ok
    (⟨raw.take 2, fromBytesSigned (((raw.drop 2).drop 4).take 8),
      fromBytesSigned ((((raw.drop 2).drop 4).drop 8).take 1),
      .obj (Version.fromBytes (((((raw.drop 2).drop 4).drop 8).drop 1).take 4)), fromBytesSigned ((raw.drop 2).take 4),
      fromBytesSigned ((((((raw.drop 2).drop 4).drop 8).drop 1).drop 4).take 4)⟩,
      (((((raw.drop 2).drop 4).drop 8).drop 1).drop 4).drop 4) := rfl
  rw [e]
  simp only [List.drop_drop]

/-! ## C41 -/

/-- What the host does with a decoded request does not depend on marker, size and version. -/
theorem handleRequest_header (env : Ext σ H) (ch : Choice) (s : Host σ) (r : OutboundRequest) (body : Bytes)
    (m m' : Bytes) (v v' : VerField) (z z' i st vh : Int) :
    handleRequest env ch s { r with tcp_header := ⟨m, i, st, v, z, vh⟩ } body =
    handleRequest env ch s { r with tcp_header := ⟨m', i, st, v', z', vh⟩ } body := by
  have hrep : ∀ w ids, replyTo { r with tcp_header := ⟨m, i, st, v, z, vh⟩ } w ids =
      replyTo { r with tcp_header := ⟨m', i, st, v', z', vh⟩ } w ids := fun _ _ => rfl
  unfold handleRequest handleInit handleRest handleTcpHandshake handleTransportHandshake handleNotFound sendReply
  simp only [hrep]

theorem handleResponse_header (env : Ext σ H) (ch : Choice) (s : Host σ) (r : OutboundResponse) (body : Bytes)
    (m m' : Bytes) (v v' : VerField) (z z' i st vh : Int) :
    handleResponse env ch s { r with tcp_header := ⟨m, i, st, v, z, vh⟩ } body =
    handleResponse env ch s { r with tcp_header := ⟨m', i, st, v', z', vh⟩ } body := rfl

theorem message_readFrom_header (b : OutboundMessage) (m m' : Bytes) (v v' : VerField) (z z' i st vh : Int) :
    b.readFrom (some ⟨m', i, st, v', z', vh⟩) =
      (fun x : OutboundMessage => { x with tcp_header := ⟨m', i, st, v', z', vh⟩ }) <$>
        b.readFrom (some ⟨m, i, st, v, z, vh⟩) := by
  unfold OutboundMessage.readFrom
  simp only [pure_bind, map_bind]
  congr 1
  funext c
  split
  · simp only [map_bind]; rfl
  · rfl

theorem request_readFrom_header (b : OutboundRequest) (m m' : Bytes) (v v' : VerField) (z z' i st vh : Int)
    (input : Bytes) :
    b.readFrom (some ⟨m', i, st, v', z', vh⟩) input =
      (match b.readFrom (some ⟨m, i, st, v, z, vh⟩) input with
      | .ok (r, rest) => .ok ({ r with tcp_header := ⟨m', i, st, v', z', vh⟩ }, rest)
      | .error e => .error e) ∧
    ∀ r rest, b.readFrom (some ⟨m, i, st, v, z, vh⟩) input = .ok (r, rest) →
      r = { r with tcp_header := ⟨m, i, st, v, z, vh⟩ } := by
  constructor
  · unfold OutboundRequest.readFrom
    rw [message_readFrom_header b.toOutboundMessage m m' v v' z z', bind_map_left]
    cases hr : b.toOutboundMessage.readFrom (some ⟨m, i, st, v, z, vh⟩) input with
    | error e => rw [Reader.bind_error hr, Reader.bind_error hr]
    | ok p =>
      obtain ⟨x, rest⟩ := p
      rw [Reader.bind_ok hr, Reader.bind_ok hr]
      have := (message_readFrom_ok hr).1
      simp only [this]
      split
      · cases hp : OutboundRequest.parseVariable (x.variable_bytes.getD []) with
        | error e => rfl
        | ok p => rfl
      · rfl
  · intro r rest hr
    have := (request_readFrom_ok hr).1
    rw [← this]

theorem response_readFrom_header (b : OutboundResponse) (m m' : Bytes) (v v' : VerField) (z z' i st vh : Int)
    (input : Bytes) :
    b.readFrom (some ⟨m', i, st, v', z', vh⟩) input =
      (match b.readFrom (some ⟨m, i, st, v, z, vh⟩) input with
      | .ok (r, rest) => .ok ({ r with tcp_header := ⟨m', i, st, v', z', vh⟩ }, rest)
      | .error e => .error e) ∧
    ∀ r rest, b.readFrom (some ⟨m, i, st, v, z, vh⟩) input = .ok (r, rest) →
      r = { r with tcp_header := ⟨m, i, st, v, z, vh⟩ } := by
  constructor
  · unfold OutboundResponse.readFrom
    rw [message_readFrom_header b.toOutboundMessage m m' v v' z z', bind_map_left]
    cases hr : b.toOutboundMessage.readFrom (some ⟨m, i, st, v, z, vh⟩) input with
    | error e => rw [Reader.bind_error hr, Reader.bind_error hr]
    | ok p => rw [Reader.bind_ok hr, Reader.bind_ok hr]; rfl
  · intro r rest hr
    have := (response_readFrom_ok hr).1
    rw [← this]

/-- C41 is violated, always: the host behaves exactly the same - same output or exception, same state
afterwards - whatever the two marker bytes (bytes 0-1), the declared size (bytes 2-5) and the version
(bytes 15-18) are.  In particular no frame is ever refused for one of these. -/
theorem C41_violated (env : Ext σ H) (ch : Choice) (s : Host σ) (m m' size size' mid v v' rest : Bytes)
    (hm : m.length = 2) (hm' : m'.length = 2) (hs : size.length = 4) (hs' : size'.length = 4)
    (hmid : mid.length = 9) (hv : v.length = 4) (hv' : v'.length = 4) :
    onInput env ch s (m ++ size ++ mid ++ v ++ rest) = onInput env ch s (m' ++ size' ++ mid ++ v' ++ rest) := by
  have key : ∀ (m size v : Bytes), m.length = 2 → size.length = 4 → v.length = 4 →
      ∃ M V Z, TcpHeader.readFrom (m ++ size ++ mid ++ v ++ rest) = .ok
        (⟨M, fromBytesSigned (mid.take 8), fromBytesSigned ((mid.drop 8).take 1), V, Z,
          fromBytesSigned (rest.take 4)⟩, rest.drop 4) := by
    intro m size v h1 h2 h3
    rw [header_read]
    have e6 : (m ++ size ++ mid ++ v ++ rest).drop 6 = mid ++ (v ++ rest) := by
      rw [List.append_assoc, List.append_assoc]
      exact List.drop_left' (by simp [h1, h2])
    have e14 : (m ++ size ++ mid ++ v ++ rest).drop 14 = mid.drop 8 ++ (v ++ rest) := by
      rw [show 14 = 6 + 8 from rfl, ← List.drop_drop, e6, List.drop_append_of_le_length (by omega)]
    have e19 : (m ++ size ++ mid ++ v ++ rest).drop 19 = rest :=
      List.drop_left' (by simp [h1, h2, h3, hmid])
    have e23 : (m ++ size ++ mid ++ v ++ rest).drop 23 = rest.drop 4 := by
      rw [show 23 = 19 + 4 from rfl, ← List.drop_drop, e19]
    have t8 : (mid ++ (v ++ rest)).take 8 = mid.take 8 := List.take_append_of_le_length (by omega)
    have t1 : (mid.drop 8 ++ (v ++ rest)).take 1 = (mid.drop 8).take 1 :=
      List.take_append_of_le_length (by simp [hmid])
    rw [e6, e14, e19, e23, t8, t1]
    exact ⟨_, _, _, rfl⟩
  obtain ⟨M, V, Z, h1⟩ := key m size v hm hs hv
  obtain ⟨M', V', Z', h2⟩ := key m' size' v' hm' hs' hv'
  unfold onInput
  simp only [h1, h2]
  by_cases hq : (TcpHeader.mk M (fromBytesSigned (mid.take 8)) (fromBytesSigned ((mid.drop 8).take 1)) V Z
    (fromBytesSigned (rest.take 4))).isRequest = true
  · have hq' : (TcpHeader.mk M' (fromBytesSigned (mid.take 8)) (fromBytesSigned ((mid.drop 8).take 1)) V' Z'
      (fromBytesSigned (rest.take 4))).isRequest = true := hq
    simp only [hq, hq', if_true]
    obtain ⟨bl, hb, _⟩ := blankRequest_new (s.ids + 1)
    have e0 : (TcpHeader.new (.int Version.CURRENT) 0 none s.ids).2 = s.ids + 1 := rfl
    simp only [e0, hb]
    obtain ⟨k1, k2⟩ := request_readFrom_header bl M M' V V' Z Z' (fromBytesSigned (mid.take 8))
      (fromBytesSigned ((mid.drop 8).take 1)) (fromBytesSigned (rest.take 4)) (rest.drop 4)
    rw [k1]
    cases hr : bl.readFrom (some ⟨M, fromBytesSigned (mid.take 8), fromBytesSigned ((mid.drop 8).take 1), V, Z,
      fromBytesSigned (rest.take 4)⟩) (rest.drop 4) with
    | error e => rfl
    | ok p =>
      obtain ⟨r, rest'⟩ := p
      simp only
      rw [k2 r rest' hr]
      exact handleRequest_header env ch _ r rest' M M' V V' Z Z' _ _ _
  · have hq0 : (TcpHeader.mk M (fromBytesSigned (mid.take 8)) (fromBytesSigned ((mid.drop 8).take 1)) V Z
      (fromBytesSigned (rest.take 4))).isRequest = false := by simpa using hq
    have hq' : (TcpHeader.mk M' (fromBytesSigned (mid.take 8)) (fromBytesSigned ((mid.drop 8).take 1)) V' Z'
      (fromBytesSigned (rest.take 4))).isRequest = false := hq0
    simp only [hq0, hq', Bool.false_eq_true, if_false]
    obtain ⟨bl, hb, _⟩ := blankResponse_new (s.ids + 1)
    have e0 : (TcpHeader.new (.int Version.CURRENT) 0 none s.ids).2 = s.ids + 1 := rfl
    simp only [e0, hb]
    obtain ⟨k1, k2⟩ := response_readFrom_header bl M M' V V' Z Z' (fromBytesSigned (mid.take 8))
      (fromBytesSigned ((mid.drop 8).take 1)) (fromBytesSigned (rest.take 4)) (rest.drop 4)
    rw [k1]
    cases hr : bl.readFrom (some ⟨M, fromBytesSigned (mid.take 8), fromBytesSigned ((mid.drop 8).take 1), V, Z,
      fromBytesSigned (rest.take 4)⟩) (rest.drop 4) with
    | error e => rfl
    | ok p =>
      obtain ⟨r, rest'⟩ := p
      simp only
      rw [k2 r rest' hr]
      rfl

/-- A consequence: a frame is answered as usual after its marker, size and version were overwritten. -/
example (env : Ext σ H) (ch : Choice) (s : Host σ) (mid rest : Bytes) (h : mid.length = 9) :
    onInput env ch s ([0x45, 0x53] ++ [0, 0, 0, 50] ++ mid ++ [8, 45, 199, 35] ++ rest) =
    onInput env ch s ([0x58, 0x58] ++ [255, 255, 255, 255] ++ mid ++ [0, 0, 0, 0] ++ rest) :=
  C41_violated env ch s _ _ _ _ _ _ _ rest rfl rfl rfl rfl h rfl rfl

/-! ## C42 -/

/-- C42 is violated, always: when a TCP-handshake frame arrives in one read together with anything
behind it - any bytes `more`, in particular any further complete frame - then the reply to the
handshake is all the host sends (its body ends with the version: nothing follows), and the host's state
afterwards is that after the handshake alone: what was behind it is dropped, for every `more`. -/
theorem C42_violated (env : Ext σ H) (ch : Choice) (s : Host σ) {frame : Bytes} {ctx : ThreadContext}
    {f : List String} {id : Int} {hs cp : Bool} {task : TaskId} {v : Version}
    (h : RequestFrame frame ctx f (HandshakerRequest.writeTo ⟨task, some v⟩) "internal:tcp/handshake" id hs cp)
    (ht : TaskIdOK task) (hv : VersionOK v) (more : Bytes) :
    ∃ out body, onInput env ch s (frame ++ more) = ({ s with ids := s.ids + 2 }, .ok (some out)) ∧
      (onInput env ch s (frame ++ more)).1 = (onInput env ch s (frame ++ [])).1 ∧
      ReplyIs out id hs cp ctx body ∧
      HandshakerResponse.readFrom body = .ok (⟨Version.new 3000099⟩, []) := by
  obtain ⟨out, body, h1, h2, h3, _⟩ := C37_tcp_handshake env ch s h ht hv more
  obtain ⟨out', body', h1', _⟩ := C37_tcp_handshake env ch s h ht hv []
  exact ⟨out, body, h1, by rw [h1, h1'], h2, h3⟩

example := C42_violated sampleExt sampleChoice sampleHost (v := Version.new 3000099) sampleTcpFrame_ok (by decide +kernel)
  (by decide +kernel) sampleRestFrame

/-! ## C43 -/

theorem ctx_read_nil : ThreadContext.readFrom [] = .ok ({}, []) := by rfl

/-- Any input of at most 14 bytes - the first bytes of a frame, say - is taken for a complete request
with an empty action. -/
theorem short_is_request (raw : Bytes) (h : raw.length ≤ 14) :
    ∃ req, IsRequest raw req [] ∧ req.action = "" ∧ req.ctx = {} ∧
      req.tcp_header.request_id = fromBytesSigned ((raw.drop 6).take 8) ∧
      req.tcp_header.isHandshake = false ∧ req.tcp_header.isCompress = false := by
  have e14 : raw.drop 14 = [] := List.drop_eq_nil_of_le h
  have e19 : raw.drop 19 = [] := List.drop_eq_nil_of_le (by omega)
  have e23 : raw.drop 23 = [] := List.drop_eq_nil_of_le (by omega)
  have hr := header_read raw
  rw [e14, e19, e23] at hr
  obtain ⟨bl, hb, _, _, _, bf, ba⟩ := blankRequest_new 0
  refine ⟨_, ⟨(parsesAsRequest_iff 0).2 ⟨bl, _, [], hb, hr, rfl⟩, ?_⟩, ba, rfl, rfl, ?_, ?_⟩
  · show TcpHeader.isRequest ⟨_, _, fromBytesSigned [], _, _, _⟩ = true
    unfold TcpHeader.isRequest TcpHeader.isResponse TcpHeader.isStatus
    show (!decide (Int.land (fromBytesSigned []) STATUS_REQRES ≠ 0)) = true
    decide +kernel
  · unfold TcpHeader.isHandshake TcpHeader.isStatus
    show decide (Int.land (fromBytesSigned []) STATUS_HANDSHAKE ≠ 0) = false
    decide +kernel
  · unfold TcpHeader.isCompress TcpHeader.isStatus
    show decide (Int.land (fromBytesSigned []) STATUS_COMPRESS ≠ 0) = false
    decide +kernel

/-- Any input of at most 14 bytes makes the host send a not-found reply at once. -/
theorem short_reply (env : Ext σ H) (ch : Choice) (s : Host σ) (hids : s.ids + 3 < 2 ^ 63) (raw : Bytes)
    (h : raw.length ≤ 14) :
    ∃ n id out rbody d, onInput env ch s raw = ({ s with ids := n }, .ok (some out)) ∧
      ReplyIs out id false false {} rbody ∧ RestExecuteOnExtensionResponse.readFrom rbody = .ok (d, []) ∧
      d.status = some .NOT_FOUND ∧ rbody = (notFoundResponse "").writeTo.out := by
  obtain ⟨req, hr, ha, hc, _, hh, hcp⟩ := short_is_request raw h
  obtain ⟨i1, i2, hctx⟩ := parsesAsRequest_ok hr.1
  obtain ⟨hrt, hlen⟩ := notFound_facts req.action (by rw [ha]; decide +kernel)
  have hch : -(2 ^ 63) ≤ chosenId (some req.tcp_header.request_id) (s.ids + 2) ∧
      chosenId (some req.tcp_header.request_id) (s.ids + 2) < 2 ^ 63 := by
    unfold chosenId
    simp only
    split <;> omega
  have hsz : req.ctx.size = 2 := by rw [hc]; decide +kernel
  have hal : (utf8 req.action).length = 0 := by rw [ha]; decide +kernel
  obtain ⟨out, o1, o2⟩ := sendReply_fits' ch { s with ids := s.ids + 2 } hctx hch.1 hch.2 hrt.1 (by omega)
  rw [hh, hcp, hc] at o2
  have e : onInput env ch s raw = handleNotFound ch { s with ids := s.ids + 2 } req := by
    rw [onInput_request hr]
    unfold handleRequest
    rw [if_neg (by rw [ha]; decide +kernel), if_neg (by rw [ha]; decide +kernel), if_neg (by rw [ha]; decide +kernel),
      if_neg (by rw [ha]; decide +kernel)]
  exact ⟨_, _, out, _, _, e.trans o1, o2, by simpa using hrt.2 [], rfl, by rw [ha]⟩

/-- C43 is violated by every split, of any stream of frames, that makes a read of at most 14 bytes, whether they are the beginning,
the end or the middle of a frame: in every state the host answers that read alone, with a not-found reply nobody asked for. -/
theorem C43_piece_violated (env : Ext σ H) (ch : Choice) (s : Host σ) (hids : s.ids + 3 < 2 ^ 63) (piece : Bytes)
    (h : piece.length ≤ 14) :
    ∃ out id body d, (onInput env ch s piece).2 = .ok (some out) ∧ ReplyIs out id false false {} body ∧
      RestExecuteOnExtensionResponse.readFrom body = .ok (d, []) ∧ d.status = some .NOT_FOUND := by
  obtain ⟨k, i, out, rbody, d, g1, g2, g3, g4, -⟩ := short_reply env ch s hids piece h
  exact ⟨out, i, rbody, d, by rw [g1], g2, g3, g4⟩

/-- C43 is violated, for every TCP-handshake frame and every split point within its first 14 bytes:
read as a whole, the frame gets the handshake's reply; split there, the first part alone already makes
the host send something else, a not-found reply. -/
theorem C43_violated (env : Ext σ H) (ch : Choice) (s : Host σ) (hids : s.ids + 3 < 2 ^ 63) {frame : Bytes}
    {ctx : ThreadContext} {f : List String} {id : Int} {hs cp : Bool} {task : TaskId} {v : Version}
    (h : RequestFrame frame ctx f (HandshakerRequest.writeTo ⟨task, some v⟩) "internal:tcp/handshake" id hs cp)
    (ht : TaskIdOK task) (hv : VersionOK v) (n : Nat) (hn : n ≤ 14) :
    (∃ out body, (onInput env ch s frame).2 = .ok (some out) ∧ ReplyIs out id hs cp ctx body ∧
      HandshakerResponse.readFrom body = .ok (⟨Version.new 3000099⟩, [])) ∧
    ∃ out i body d, (onInput env ch s (frame.take n)).2 = .ok (some out) ∧ ReplyIs out i false false {} body ∧
      RestExecuteOnExtensionResponse.readFrom body = .ok (d, []) ∧ d.status = some .NOT_FOUND ∧
      (onInput env ch s frame).2 ≠ .ok (some out) := by
  obtain ⟨out, body, h1, h2, h3, _⟩ := C37_tcp_handshake env ch s h ht hv []
  rw [List.append_nil] at h1
  obtain ⟨k, i, out', rbody, d, g1, g2, g3, g4, g5⟩ := short_reply env ch s hids (frame.take n) (by simp; omega)
  refine ⟨⟨out, body, by rw [h1], h2, h3⟩, out', i, rbody, d, by rw [g1], g2, g3, g4, ?_⟩
  rw [h1]
  intro e
  have eo : out = out' := by simpa using e
  subst eo
  -- one body would decode both ways, each to its end
  obtain ⟨r, x1, _⟩ := h2
  obtain ⟨r', y1, _⟩ := g2
  have eb := (IsResponse.unique x1 y1).2
  rw [eb, g5] at h3
  have hno : (match HandshakerResponse.readFrom (notFoundResponse "").writeTo.out with
    | .ok (_, []) => true
    | _ => false) = false := by decide +kernel
  rw [h3] at hno
  simp at hno

example := C43_piece_violated sampleExt sampleChoice sampleHost (by decide) [0x45, 0x53, 0, 0] (by decide)
example := C43_violated sampleExt sampleChoice sampleHost (by decide) (v := Version.new 3000099) sampleTcpFrame_ok
  (by decide +kernel) (by decide +kernel) 5 (by decide)

/-! ## C51 -/

/-- C51 is violated, always: a well-formed REST frame whose method and path match no registered route
makes the host raise, and nothing is sent (the caller gets no reply, not even an error). -/
theorem C51_violated (env : Ext σ H) (ch : Choice) (s : Host σ) {frame : Bytes} {ctx : ThreadContext}
    {f : List String} {id : Int} {hs cp : Bool} {r : ExtensionRestRequest} {m : RestMethod}
    (h : RequestFrame frame ctx f r.writeTo "internal:extensions/restexecuteonextensiontaction" id hs cp)
    (hr : RequestOK r) (hm : r.method = some m)
    (hroute : env.registry.dispatch (m.name ++ " " ++ r.path) = none) (trailing : Bytes) :
    ∃ e, onInput env ch s (frame ++ trailing) = ({ s with ids := s.ids + 2 }, .error e) := by
  obtain ⟨_, _, req, q1, q2, q3, q4, q5, q6, q7, q8, _, q10⟩ := frame_parses h trailing
  refine ⟨.exception, ?_⟩
  rw [onInput_request q1]
  unfold handleRequest
  rw [if_neg (by rw [q10]; decide +kernel), if_pos q10]
  unfold handleRest
  rw [(rt_restRequest hr {}).2 trailing]
  simp only [hm]
  unfold Registry.handle
  rw [hroute]

example := C51_violated sampleExt sampleChoice sampleHost sampleLostFrame_ok sampleLost_ok (m := .GET) rfl
  (by decide +kernel) [1, 2]

/-- C51, what holds: requests with an unknown action, and TCP and transport handshakes whose body
decodes, are replied to in every state, whatever their id, if there is room for the reply in a frame
(of 2 GiB). -/
theorem C51_partial (env : Ext σ H) (ch : Choice) (s : Host σ) (hids : s.ids + 3 < 2 ^ 63) {raw : Bytes}
    {req : OutboundRequest} {body : Bytes} (hr : IsRequest raw req body)
    (hfits : req.ctx.size + (utf8 req.action).length < 2 ^ 31 - 1000)
    (ha : (req.action = "internal:tcp/handshake" ∧ ∃ m rest, HandshakerRequest.readFrom body = .ok (m, rest)) ∨
      (req.action = "internal:transport/handshake" ∧
        ∃ m rest, ServiceHandshakeRequest.readFrom body = .ok (m, rest)) ∨
      req.action ∉ ["internal:discovery/extensions", "internal:extensions/restexecuteonextensiontaction",
        "internal:tcp/handshake", "internal:transport/handshake"]) :
    ∃ s' out id rbody, onInput env ch s raw = (s', .ok (some out)) ∧
      ReplyIs out id req.tcp_header.isHandshake req.tcp_header.isCompress req.ctx rbody ∧
      (req.tcp_header.request_id ≠ 0 → id = req.tcp_header.request_id) := by
  obtain ⟨i1, i2, hctx⟩ := parsesAsRequest_ok hr.1
  have hch : -(2 ^ 63) ≤ chosenId (some req.tcp_header.request_id) (s.ids + 2) ∧
      chosenId (some req.tcp_header.request_id) (s.ids + 2) < 2 ^ 63 := by
    unfold chosenId
    simp only
    split <;> omega
  have hfin : req.tcp_header.request_id ≠ 0 →
      chosenId (some req.tcp_header.request_id) (s.ids + 2) = req.tcp_header.request_id := by
    intro h; unfold chosenId; simp [h]
  rcases ha with ⟨ha, m, rest, hb⟩ | ⟨ha, m, rest, hb⟩ | ha
  · have hcur : VersionOK (Version.new Version.CURRENT) := by decide +kernel
    have hrt := rt_handshakerResponse (m := ⟨Version.new Version.CURRENT⟩) hcur
    have hlen : (HandshakerResponse.writeTo ⟨Version.new Version.CURRENT⟩).out.length = 4 := versionCurrent_length
    obtain ⟨out, o1, o2⟩ := sendReply_fits' ch { s with ids := s.ids + 2 } hctx hch.1 hch.2 hrt.1
      (by rw [hlen]; omega)
    have e : onInput env ch s raw = sendReply ch { s with ids := s.ids + 2 } req
        (HandshakerResponse.writeTo ⟨Version.new Version.CURRENT⟩) := by
      rw [onInput_request hr]
      unfold handleRequest
      rw [if_neg (by rw [ha]; decide +kernel), if_neg (by rw [ha]; decide +kernel), if_pos ha]
      unfold handleTcpHandshake
      rw [hb]
    exact ⟨_, out, _, _, e.trans o1, o2, hfin⟩
  · have hrt := rt_serviceResponse (m := ⟨some (helloWorldNode ch), "", Version.new Version.CURRENT⟩)
      (fun n hn => by cases hn; exact helloWorldNode_ok ch) (show StrOK "" by decide +kernel)
      (show VersionOK (Version.new Version.CURRENT) by decide +kernel)
    have hlen := helloWorldNode_length ch
    obtain ⟨out, o1, o2⟩ := sendReply_fits' ch { s with ids := s.ids + 2 } hctx hch.1 hch.2 hrt.1 (by omega)
    have e : onInput env ch s raw = sendReply ch { s with ids := s.ids + 2 } req
        (ServiceHandshakeResponse.writeTo ⟨some (helloWorldNode ch), "", Version.new Version.CURRENT⟩) := by
      rw [onInput_request hr]
      unfold handleRequest
      rw [if_neg (by rw [ha]; decide +kernel), if_neg (by rw [ha]; decide +kernel),
        if_neg (by rw [ha]; decide +kernel), if_pos ha]
      unfold handleTransportHandshake
      rw [hb]
    exact ⟨_, out, _, _, e.trans o1, o2, hfin⟩
  · obtain ⟨hrt, hlen⟩ := notFound_facts req.action (by omega)
    obtain ⟨out, o1, o2⟩ := sendReply_fits' ch { s with ids := s.ids + 2 } hctx hch.1 hch.2 hrt.1 (by omega)
    have e : onInput env ch s raw = handleNotFound ch { s with ids := s.ids + 2 } req := by
      simp only [List.mem_cons, List.not_mem_nil, or_false, not_or] at ha
      rw [onInput_request hr]
      unfold handleRequest
      rw [if_neg ha.1, if_neg ha.2.1, if_neg ha.2.2.1, if_neg ha.2.2.2]
    exact ⟨_, out, _, _, e.trans o1, o2, hfin⟩

example := C51_partial sampleExt sampleChoice sampleHost (by decide +kernel) sampleUnknown_isRequest (by decide +kernel)
  (.inr (.inr (by decide +kernel)))

/-- C51: the sample extension has no handler for this path. -/
example : RequestOK { sampleRest with path := "/nothing" } ∧
    sampleExt.registry.dispatch ("GET" ++ " " ++ "/nothing") = none :=
  ⟨by constructor <;> decide +kernel, by decide +kernel⟩

/-- C51 (partial): a handshake whose body decodes. -/
example : ∃ m rest, HandshakerRequest.readFrom (HandshakerRequest.writeTo ⟨⟨"n", some 1⟩, some (Version.new 3000099)⟩).out
    = .ok (m, rest) :=
  ⟨⟨⟨"n", some 1⟩, some (Version.new 3000099)⟩, [], by decide +kernel⟩

end Verif
