import Verif.Model.Header
/-!
# transport/thread_context_struct.py, network_message.py, outbound_message.py,
# outbound_message_request.py, outbound_message_response.py
-/

namespace Verif
open Py StreamInput StreamOutput

/-- `ThreadContextStruct`, transport/thread_context_struct.py:16-19.  A set of strings is the
duplicate-free list of its elements. -/
structure ThreadContext where
  request_headers : Dict String String := []
  response_headers : Dict String (List String) := []
  deriving DecidableEq, Repr

namespace ThreadContext

/-- `read_from`, transport/thread_context_struct.py:21-24. -/
def readFrom : Reader ThreadContext := do
  let req ← readStringDict
  let res ← readStringSetDict
  return ⟨req, res⟩

/-- `write_to`, transport/thread_context_struct.py:26-29.  The sets are written with
`write_string_array` (transport/stream_output.py:364-368, 321-324) in their iteration order `ho`. -/
def writeTo (ho : HashOrder) (c : ThreadContext) : W :=
  writeStringDict c.request_headers ++
    writeStringArrayDict (c.response_headers.map fun kv => (kv.1, ho.order kv.2))

/-- `size`, transport/thread_context_struct.py:31-35 (a sum over the set, so the iteration order
does not matter). -/
def size (c : ThreadContext) : Nat :=
  stringDictSize c.request_headers + stringCollDictSize c.response_headers

end ThreadContext

/-- The attributes of `OutboundMessage` that matter on the wire (transport/network_message.py:21-31,
transport/outbound_message.py:24-45).  `message` itself is only used for logging. -/
structure OutboundMessage where
  tcp_header : TcpHeader
  ctx : ThreadContext
  variable_bytes : Option Bytes
  message_bytes : Option Bytes
  deriving DecidableEq, Repr

namespace OutboundMessage

/-- `variable_bytes = b`, transport/outbound_message.py:51-58. -/
def setVariableBytes (m : OutboundMessage) (b : Bytes) : OutboundMessage :=
  let h := m.tcp_header
  let h := match m.variable_bytes with
    | some (x :: xs) => { h with
        size := h.size - (x :: xs).length
        variable_header_size := h.variable_header_size - (x :: xs).length }
    | _ => h
  { m with
    tcp_header := { h with
      size := h.size + b.length
      variable_header_size := h.variable_header_size + b.length }
    variable_bytes := some b }

/-- `message_bytes = b`, transport/outbound_message.py:64-69. -/
def setMessageBytes (m : OutboundMessage) (b : Bytes) : OutboundMessage :=
  let h := m.tcp_header
  let h := match m.message_bytes with
    | some (x :: xs) => { h with size := h.size - (x :: xs).length }
    | _ => h
  { m with tcp_header := { h with size := h.size + b.length }, message_bytes := some b }

/-- `OutboundMessage(...)` up to, but without, the final `_write_variable_bytes()` hook,
transport/outbound_message.py:25-44 with transport/network_message.py:22-31.  `message` is the result of
serialising the message object, if one is given: `bytes(message)` may raise, after the request id
has been drawn.  Python objects are truthy here (no `__len__`/`__bool__` on contexts and
messages). -/
def new (ctx : Option ThreadContext) (version : VerField) (status : Int) (request_id : Option Int)
    (message : Option W) (ids : Nat) : Except Err OutboundMessage × Nat :=
  let ctx := ctx.getD {}
  let (h, ids) := TcpHeader.new version status request_id ids
  let h := { h with size := h.size + ctx.size }
  match message with
  | none => (.ok ⟨{ h with variable_header_size := ctx.size }, ctx, none, none⟩, ids)
  | some w =>
    match w.err with
    | some e => (.error e, ids)
    | none =>
      (.ok ⟨{ h with size := h.size + w.out.length, variable_header_size := ctx.size },
        ctx, none, some w.out⟩, ids)

/-- `read_from` without the `_read_variable_bytes()` hook, transport/outbound_message.py:71-85.
With a header given it becomes the message's header; otherwise one is read. -/
def readFrom (self : OutboundMessage) (header : Option TcpHeader) : Reader OutboundMessage := do
  let h ← match header with
    | some h => pure h
    | none => TcpHeader.readFrom
  let ctx ← ThreadContext.readFrom
  if h.variable_header_size > 0 then
    let vb ← readBytes (h.variable_header_size - ctx.size)
    return { self with tcp_header := h, ctx := ctx, variable_bytes := some vb }
  else
    return { self with tcp_header := h, ctx := ctx }

/-- `if b: output.write(b)`, transport/outbound_message.py:102-105. -/
def writeOpt : Option Bytes → W
  | some b => if b = [] then W.nil else W.emit b
  | none => W.nil

/-- `write_to` (and `__bytes__`), transport/outbound_message.py:99-114. -/
def writeTo (ho : HashOrder) (m : OutboundMessage) : W :=
  m.tcp_header.writeTo ++ (m.ctx.writeTo ho ++
    (writeOpt m.variable_bytes ++ writeOpt m.message_bytes))

/-- `if is_handshake: …; if is_compress: …`, transport/outbound_message_request.py:37-40 and
transport/outbound_message_response.py:34-37. -/
def setFlags (m : OutboundMessage) (is_handshake is_compress : Bool) : OutboundMessage :=
  let h := m.tcp_header
  let h := if is_handshake then h.setHandshake true else h
  let h := if is_compress then h.setCompress true else h
  { m with tcp_header := h }

end OutboundMessage

/-- `OutboundMessageRequest`, transport/outbound_message_request.py:22-51. -/
structure OutboundRequest extends OutboundMessage where
  features : List String
  action : String
  deriving DecidableEq, Repr

namespace OutboundRequest

/-- The bytes built by `_write_variable_bytes`, transport/outbound_message_request.py:47-51. -/
def variableBytes (features : List String) (action : String) : W :=
  writeStringArray features ++ writeString action

/-- The hook `_read_variable_bytes`, transport/outbound_message_request.py:42-45: parsed from a
stream of its own; what is left over is ignored. -/
def parseVariable (vb : Bytes) : Except Err (List String × String) :=
  match (do let f ← readStringArray; let a ← readString; return (f, a) : Reader _) vb with
  | .ok (p, _) => .ok p
  | .error e => .error e

/-- `OutboundMessageRequest(...)`, transport/outbound_message_request.py:23-40.  The features
and the action can always be serialised (`write_string*` never raise). -/
def new (ctx : Option ThreadContext) (features : List String) (message : Option W) (version : VerField)
    (action : String) (request_id : Option Int) (is_handshake is_compress : Bool) (ids : Nat) :
    Except Err OutboundRequest × Nat :=
  match OutboundMessage.new ctx version 0 request_id message ids with
  | (.error e, ids) => (.error e, ids)
  | (.ok m, ids) =>
    let m := m.setVariableBytes (variableBytes features action).out
    (.ok { m.setFlags is_handshake is_compress with features := features, action := action }, ids)

/-- `OutboundMessageRequest.read_from`, transport/outbound_message.py:71-85 with the hook
transport/outbound_message_request.py:42-45; features and action stay as they are when the variable header
is absent. -/
def readFrom (self : OutboundRequest) (header : Option TcpHeader) : Reader OutboundRequest := do
  let m ← self.toOutboundMessage.readFrom header
  if m.tcp_header.variable_header_size > 0 then
    let p ← Reader.lift (parseVariable (m.variable_bytes.getD []))
    return { m with features := p.1, action := p.2 }
  else
    return { m with features := self.features, action := self.action }

end OutboundRequest

/-- `OutboundMessageResponse`, transport/outbound_message_response.py:21-37 (`features` is stored
but never written). -/
structure OutboundResponse extends OutboundMessage where
  features : List String
  deriving DecidableEq, Repr

namespace OutboundResponse

/-- `OutboundMessageResponse(...)`, transport/outbound_message_response.py:22-37. -/
def new (ctx : Option ThreadContext) (features : List String) (message : Option W) (version : VerField)
    (request_id : Option Int) (is_handshake is_compress : Bool) (ids : Nat) :
    Except Err OutboundResponse × Nat :=
  match OutboundMessage.new ctx version STATUS_REQRES request_id message ids with
  | (.error e, ids) => (.error e, ids)
  | (.ok m, ids) => (.ok { m.setFlags is_handshake is_compress with features := features }, ids)

/-- `OutboundMessageResponse.read_from`, transport/outbound_message.py:71-85 (the hook does
nothing). -/
def readFrom (self : OutboundResponse) (header : Option TcpHeader) : Reader OutboundResponse := do
  let m ← self.toOutboundMessage.readFrom header
  return { m with features := self.features }

end OutboundResponse

end Verif
