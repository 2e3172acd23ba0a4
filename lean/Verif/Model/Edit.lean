import Verif.Spec.Build
/-!
# Requests and responses that are changed after they were constructed

The attributes of `OutboundMessageRequest` and `OutboundMessageResponse` a program can assign to, or change in place, between the constructor and `write_to`.
-/

namespace Verif
open Py

/-- One change of a request: `variable_bytes = b` and `message_bytes = b` (transport/outbound_message.py:51-58, 64-69); a change of
`thread_context_struct` in place or by assignment (transport/network_message.py:29); `features = f`, `action = a`
(transport/outbound_message_request.py:34-35); a flag of the header (transport/tcp_header.py:80-114); `tcp_header.request_id = i`
and `tcp_header.version = v` (transport/tcp_header.py:38-52). -/
inductive RequestEdit where
  | variableBytes (b : Bytes)
  | messageBytes (b : Bytes)
  | context (f : ThreadContext → ThreadContext)
  | features (l : List String)
  | action (a : String)
  | flag (a : Spec.Assign)
  | requestId (i : Int)
  | version (v : Version)

/-- The request after the change: only the two setters of transport/outbound_message.py:51-58 and 64-69 touch the sizes in the
header; `features` and `action` are plain attributes, serialised by the constructor only
(transport/outbound_message.py:44, transport/outbound_message_request.py:47-51). -/
def OutboundRequest.edit (r : OutboundRequest) : RequestEdit → OutboundRequest
  | .variableBytes b => { r.toOutboundMessage.setVariableBytes b with features := r.features, action := r.action }
  | .messageBytes b => { r.toOutboundMessage.setMessageBytes b with features := r.features, action := r.action }
  | .context f => { r with ctx := f r.ctx }
  | .features l => { r with features := l }
  | .action a => { r with action := a }
  | .flag a => { r with tcp_header := assign r.tcp_header a }
  | .requestId i => { r with tcp_header := { r.tcp_header with request_id := i } }
  | .version v => { r with tcp_header := { r.tcp_header with version := .obj v } }

/-- One change of a response: as `RequestEdit`, without the action (transport/outbound_message_response.py:22-37). -/
inductive ResponseEdit where
  | variableBytes (b : Bytes)
  | messageBytes (b : Bytes)
  | context (f : ThreadContext → ThreadContext)
  | features (l : List String)
  | flag (a : Spec.Assign)
  | requestId (i : Int)
  | version (v : Version)

/-- The response after the change.  `features` is a plain attribute that nothing serialises
(transport/outbound_message_response.py:32, transport/outbound_message.py:99-105). -/
def OutboundResponse.edit (r : OutboundResponse) : ResponseEdit → OutboundResponse
  | .variableBytes b => { r.toOutboundMessage.setVariableBytes b with features := r.features }
  | .messageBytes b => { r.toOutboundMessage.setMessageBytes b with features := r.features }
  | .context f => { r with ctx := f r.ctx }
  | .features l => { r with features := l }
  | .flag a => { r with tcp_header := assign r.tcp_header a }
  | .requestId i => { r with tcp_header := { r.tcp_header with request_id := i } }
  | .version v => { r with tcp_header := { r.tcp_header with version := .obj v } }

end Verif
