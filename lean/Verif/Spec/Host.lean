import Verif.Model.Host
import Verif.Spec.Context
import Verif.Spec.Domains
/-!
# Specification: what a peer sees on the wire

A peer (or a test) decodes a byte string with a freshly created message object, exactly as the
public API is used: `OutboundMessageRequest().read_from(StreamInput(data))` and
`OutboundMessageResponse().read_from(StreamInput(data))`.
-/

namespace Verif
open Py StreamInput StreamOutput

/-- `OutboundMessageRequest().read_from(StreamInput(raw))` succeeds with `req`, leaving `body`. -/
def ParsesAsRequest (raw : Bytes) (req : OutboundRequest) (body : Bytes) : Prop :=
  ∃ ids ids' blank, OutboundRequest.new none [] none .none "" none false false ids = (.ok blank, ids') ∧
    blank.readFrom none raw = .ok (req, body)

/-- `OutboundMessageResponse().read_from(StreamInput(raw))` succeeds with `resp`, leaving `body`. -/
def ParsesAsResponse (raw : Bytes) (resp : OutboundResponse) (body : Bytes) : Prop :=
  ∃ ids ids' blank, OutboundResponse.new none [] none .none none false false ids = (.ok blank, ids') ∧
    blank.readFrom none raw = .ok (resp, body)

/-- The bytes are an incoming request frame: the response bit of the status byte is clear and the
frame decodes. -/
def IsRequest (raw : Bytes) (req : OutboundRequest) (body : Bytes) : Prop :=
  ParsesAsRequest raw req body ∧ req.tcp_header.isRequest = true

/-- The bytes are an incoming response frame. -/
def IsResponse (raw : Bytes) (resp : OutboundResponse) (body : Bytes) : Prop :=
  ParsesAsResponse raw resp body ∧ resp.tcp_header.isResponse = true

/-- `frame` is a well-formed request frame: what a peer gets by building an
`OutboundMessageRequest` with this thread context, features, body, action, id and flags, and
serialising it; everything fits the wire format, and the id is not 0 (ids of OpenSearch start
at 1). -/
def RequestFrame (frame : Bytes) (ctx : ThreadContext) (features : List String) (message : W)
    (action : String) (id : Int) (handshake compress : Bool) : Prop :=
  ∃ (ho : HashOrder) (v : Version) (ids ids' : Nat) (r : OutboundRequest),
    OutboundRequest.new (some ctx) features (some message) (.obj v) action (some id) handshake compress ids
      = (.ok r, ids') ∧
    frame = (r.writeTo ho).out ∧ CtxOK ctx ∧ StrsOK features ∧ StrOK action ∧
    (0 ≤ v.id ∧ v.id < 2 ^ 32) ∧ (-(2 ^ 63) ≤ id ∧ id < 2 ^ 63 ∧ id ≠ 0) ∧ r.tcp_header.size < 2 ^ 31

/-- `frame` is a well-formed response frame. -/
def ResponseFrame (frame : Bytes) (message : W) (id : Int) : Prop :=
  ∃ (ho : HashOrder) (ctx : ThreadContext) (features : List String) (v : Version) (hs cp : Bool)
    (ids ids' : Nat) (r : OutboundResponse),
    OutboundResponse.new (some ctx) features (some message) (.obj v) (some id) hs cp ids = (.ok r, ids') ∧
    frame = (r.writeTo ho).out ∧ CtxOK ctx ∧
    (0 ≤ v.id ∧ v.id < 2 ^ 32) ∧ (-(2 ^ 63) ≤ id ∧ id < 2 ^ 63 ∧ id ≠ 0) ∧ r.tcp_header.size < 2 ^ 31

/-- A reply, as the peer decodes it: a non-error response with this id, these flags and this
context, whose body is `body`. -/
def ReplyIs (out : Bytes) (id : Int) (handshake compress : Bool) (ctx : ThreadContext)
    (body : Bytes) : Prop :=
  ∃ reply, IsResponse out reply body ∧ reply.tcp_header.isError = false ∧
    reply.tcp_header.request_id = id ∧ reply.tcp_header.isHandshake = handshake ∧
    reply.tcp_header.isCompress = compress ∧ SameContext reply.ctx ctx

/-- The reply answers this request: its id, its flags, its context. -/
def Answers (out : Bytes) (req : OutboundRequest) (body : Bytes) : Prop :=
  ReplyIs out req.tcp_header.request_id req.tcp_header.isHandshake req.tcp_header.isCompress req.ctx body

end Verif
