import Verif.Model.Message
/-!
# Specification: the ids a program sees
-/

namespace Verif
open Py

/-- One construction a program can perform: a header or one of the three messages, with any
arguments. -/
inductive Construction where
  | header (version : VerField) (status : Int) (request_id : Option Int)
  | message (ctx : Option ThreadContext) (version : VerField) (status : Int) (request_id : Option Int)
      (message : Option W)
  | request (ctx : Option ThreadContext) (features : List String) (message : Option W)
      (version : VerField) (action : String) (request_id : Option Int) (handshake compress : Bool)
  | response (ctx : Option ThreadContext) (features : List String) (message : Option W)
      (version : VerField) (request_id : Option Int) (handshake compress : Bool)

namespace Construction

/-- Run one construction: the request id of the object it built (`none` if it raised), and the
process-wide counter afterwards. -/
def run : Construction → Nat → Option Int × Nat
  | header v st rid, ids =>
    let (h, ids) := TcpHeader.new v st rid ids
    (some h.request_id, ids)
  | message c v st rid msg, ids =>
    let (m, ids) := OutboundMessage.new c v st rid msg ids
    (m.toOption.map fun m => m.tcp_header.request_id, ids)
  | request c f msg v a rid hs cp, ids =>
    let (m, ids) := OutboundRequest.new c f msg v a rid hs cp ids
    (m.toOption.map fun m => m.tcp_header.request_id, ids)
  | response c f msg v rid hs cp, ids =>
    let (m, ids) := OutboundResponse.new c f msg v rid hs cp ids
    (m.toOption.map fun m => m.tcp_header.request_id, ids)

/-- The request id argument. -/
def idArg : Construction → Option Int
  | header _ _ rid | message _ _ _ rid _ | request _ _ _ _ _ rid _ _ | response _ _ _ _ rid _ _ => rid

/-- No id was given (`None`, or the falsy 0). -/
def generated (c : Construction) : Bool := c.idArg = none ∨ c.idArg = some 0

/-- The ids given to the objects built without an explicit id, over a whole history of
constructions, failing ones included. -/
def generatedIds : List Construction → Nat → List Int
  | [], _ => []
  | c :: cs, ids =>
    let (i, ids') := c.run ids
    (if c.generated then i.toList else []) ++ generatedIds cs ids'

end Construction

end Verif
