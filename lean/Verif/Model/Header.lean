import Verif.Model.StreamInput
import Verif.Model.StreamOutput
/-!
# transport/tcp_header.py, transport/transport_status.py
-/

namespace Verif
open Py StreamInput StreamOutput

/-- `TransportStatus`, transport/transport_status.py:9-13. -/
def STATUS_REQRES : Int := 1
def STATUS_ERROR : Int := 2
def STATUS_COMPRESS : Int := 4
def STATUS_HANDSHAKE : Int := 8

/-- What the `version` attribute of a header can hold: a `Version` (after reading, or when one was
given), `None` (messages built without a version, transport/network_message.py:25), or the int
`Version.CURRENT` (the default of transport/tcp_header.py:43). -/
inductive VerField where
  | obj (v : Version)
  | none
  | int (n : Int)
  deriving DecidableEq, Repr

/-- `bytes(version)` (transport/tcp_header.py:69): `Version.__bytes__`; `bytes(None)` is a TypeError;
`bytes(n)` of an int is `n` zero bytes (ValueError if negative). -/
def VerField.toBytes : VerField → W
  | .obj v => v.toBytes
  | .none => W.fail .type
  | .int n => if n < 0 then W.fail .value else W.emit (List.replicate n.toNat 0)

/-- `TcpHeader`, transport/tcp_header.py:21-52. -/
structure TcpHeader where
  marker : Bytes                    -- `prefix`
  request_id : Int
  status : Int
  version : VerField
  size : Int
  variable_header_size : Int
  deriving DecidableEq, Repr

namespace TcpHeader

/-- `MESSAGE_SIZE`, transport/tcp_header.py:22-34 (23 - 6). -/
def MESSAGE_SIZE : Int := 17

/-- `b"ES"`, transport/tcp_header.py:40. -/
def ES : Bytes := [0x45, 0x53]

/-- `TcpHeader(version=…, status=…, request_id=…)`, transport/tcp_header.py:38-52, as called in
transport/network_message.py:30.  `ids` is the class-wide counter `id_iter` (transport/tcp_header.py:36); a missing
request id, *and the request id 0*, draw from it. -/
def new (version : VerField) (status : Int) (request_id : Option Int) (ids : Nat) : TcpHeader × Nat :=
  match request_id with
  | some i =>
    if i = 0 then (⟨ES, ids, status, version, MESSAGE_SIZE, 0⟩, ids + 1)
    else (⟨ES, i, status, version, MESSAGE_SIZE, 0⟩, ids)
  | none => (⟨ES, ids, status, version, MESSAGE_SIZE, 0⟩, ids + 1)

/-- `read_from`, transport/tcp_header.py:54-62 (every field is overwritten). -/
def readFrom : Reader TcpHeader := do
  let marker ← readBytes 2
  let size ← readInt
  let request_id ← readLong
  let status ← readByte
  let v ← readBytes 4
  let variable_header_size ← readInt
  return ⟨marker, request_id, status, .obj (Version.fromBytes v), size, variable_header_size⟩

/-- `write_to`, transport/tcp_header.py:64-71. -/
def writeTo (h : TcpHeader) : W :=
  W.emit h.marker ++ (writeInt h.size ++ (writeLong h.request_id ++ (writeByte h.status ++
    (h.version.toBytes ++ writeInt h.variable_header_size))))

/-- `__is_status`, transport/tcp_header.py:131-132. -/
def isStatus (h : TcpHeader) (flag : Int) : Bool := Int.land h.status flag ≠ 0

/-- `__set_status`, transport/tcp_header.py:134-138. -/
def setStatus (h : TcpHeader) (flag : Int) (value : Bool) : TcpHeader :=
  if value then { h with status := Int.lor h.status flag }
  else { h with status := Int.land h.status (Int.lnot flag) }

/-- `is_response`, transport/tcp_header.py:76-78. -/
def isResponse (h : TcpHeader) : Bool := h.isStatus STATUS_REQRES
/-- `is_request`, transport/tcp_header.py:84-86. -/
def isRequest (h : TcpHeader) : Bool := !h.isResponse
/-- `is_error`, transport/tcp_header.py:92-94. -/
def isError (h : TcpHeader) : Bool := h.isStatus STATUS_ERROR
/-- `is_compress`, transport/tcp_header.py:100-102. -/
def isCompress (h : TcpHeader) : Bool := h.isStatus STATUS_COMPRESS
/-- `is_handshake`, transport/tcp_header.py:108-110. -/
def isHandshake (h : TcpHeader) : Bool := h.isStatus STATUS_HANDSHAKE

/-- `is_response = value`, transport/tcp_header.py:80-82. -/
def setResponse (h : TcpHeader) (value : Bool) : TcpHeader := h.setStatus STATUS_REQRES value
/-- `is_request = value`, transport/tcp_header.py:88-90. -/
def setRequest (h : TcpHeader) (value : Bool) : TcpHeader := h.setStatus STATUS_REQRES (!value)
/-- `is_error = value`, transport/tcp_header.py:96-98. -/
def setError (h : TcpHeader) (value : Bool) : TcpHeader := h.setStatus STATUS_ERROR value
/-- `is_compress = value`, transport/tcp_header.py:104-106. -/
def setCompress (h : TcpHeader) (value : Bool) : TcpHeader := h.setStatus STATUS_COMPRESS value
/-- `is_handshake = value`, transport/tcp_header.py:112-114. -/
def setHandshake (h : TcpHeader) (value : Bool) : TcpHeader := h.setStatus STATUS_HANDSHAKE value

/-- `statuses`, transport/tcp_header.py:116-129. -/
def statuses (h : TcpHeader) : List String :=
  (if h.isRequest then ["request"] else ["response"]) ++
  (if h.isError then ["error"] else []) ++
  (if h.isCompress then ["compressed"] else []) ++
  (if h.isHandshake then ["handshake"] else [])

end TcpHeader

end Verif
