import Verif.Model.Message
import Verif.Spec.Flags
/-!
# Specification: The messages a program can build
-/

namespace Verif
open Py Spec

/-- The flags as the header's properties report them. -/
def TcpHeader.flags (h : TcpHeader) : Flags := ⟨h.isResponse, h.isError, h.isCompress, h.isHandshake⟩

/-- The corresponding property assignment on a header. -/
def assign (h : TcpHeader) : Assign → TcpHeader
  | .response b => h.setResponse b
  | .request b => h.setRequest b
  | .error b => h.setError b
  | .compress b => h.setCompress b
  | .handshake b => h.setHandshake b

/-- Every outbound message a program can build: by one of the three constructors, followed by any
number of assignments to its variable bytes, its message bytes and its header's flags. -/
inductive Built : OutboundMessage → Prop
  | message {ctx ver st rid msg ids m ids'} :
      OutboundMessage.new ctx ver st rid msg ids = (.ok m, ids') → Built m
  | request {ctx f msg ver a rid hs cp ids r ids'} :
      OutboundRequest.new ctx f msg ver a rid hs cp ids = (.ok r, ids') → Built r.toOutboundMessage
  | response {ctx f msg ver rid hs cp ids r ids'} :
      OutboundResponse.new ctx f msg ver rid hs cp ids = (.ok r, ids') → Built r.toOutboundMessage
  | setVariable {m} (b : Bytes) : Built m → Built (m.setVariableBytes b)
  | setMessage {m} (b : Bytes) : Built m → Built (m.setMessageBytes b)
  | setFlag {m} (a : Assign) : Built m → Built { m with tcp_header := assign m.tcp_header a }

/-- The request id a new message gets (specification): the given one, unless it is missing or 0,
in which case the next one of the process-wide counter. -/
def chosenId (rid : Option Int) (ids : Nat) : Int :=
  match rid with
  | some i => if i = 0 then ids else i
  | none => ids

/-- The identity iteration order. -/
def idOrder : HashOrder := ⟨fun l => l, fun l => List.Perm.refl l⟩

end Verif
