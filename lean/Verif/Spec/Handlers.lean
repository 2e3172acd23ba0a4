import Verif.Model.Handlers
/-!
# Specification: which handler gets a message
-/

namespace Verif
open Py

/-- `h` is the handler registered last for the action `a`, among those registered in the order `hs`. -/
def RegisteredLast {S : Type} (hs : List (RequestHandler S)) (a : String) (h : RequestHandler S) : Prop :=
  ∃ before after, hs = before ++ h :: after ∧ h.action = a ∧ ∀ h' ∈ after, h'.action ≠ a

/-- What is done with the response handlers: one is registered for an id, or a response with an id arrives. -/
inductive ResponseOp (T : Type) where
  | register (id : Int) (h : T)
  | respond (id : Int)

/-- The id an operation is about. -/
def ResponseOp.id {T : Type} : ResponseOp T → Int
  | .register i _ => i
  | .respond i => i

/-- The handlers left after the operations (actions/response_handlers.py:22-27). -/
def afterOps {T : Type} (d : ResponseHandlers T) : List (ResponseOp T) → ResponseHandlers T
  | [] => d
  | .register i h :: ops => afterOps (d.register i h) ops
  | .respond i :: ops => afterOps (d.pop i).2 ops

/-- The handler that runs when a response with this id arrives after the operations, if any. -/
def runsAfter {T : Type} (ops : List (ResponseOp T)) (id : Int) : Option T := ((afterOps [] ops).pop id).1

end Verif
