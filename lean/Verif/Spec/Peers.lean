import Verif.Spec.Server
import Verif.Spec.Trace
/-!
# Specification: what is exchanged with each peer
-/

namespace Verif
open Py

variable {σ H : Type}

/-- The chunks of a run, in the order in which they were read: the connection, and what the host did with it.  (By C50 what
the host sends goes out on the connection on which the chunk was read.)  Models the calls of on_input in
server/async_host.py:44-66. -/
def exchanges (env : Ext σ H) : Host σ → List (Event σ) → List (Nat × Exchange)
  | _, [] => []
  | s, .recv c ch raw :: es =>
    (c, ⟨raw, (onInput env ch s raw).2⟩) :: exchanges env (onInput env ch s raw).1 es
  | s, .other n d x :: es => exchanges env { s with ids := n, settings := d, ext := x } es
  | s, _ :: es => exchanges env s es

/-- The peers only answer requests they were sent themselves: every response comes on a connection on which the host has
sent a request with its id.  (What a peer reads and writes: server/async_host.py:44-66.) -/
def OwnAnswers (l : List (Nat × Exchange)) : Prop :=
  ∀ pre c e post, l = pre ++ (c, e) :: post → ∀ id, Responds e.input id →
    ∃ e' a, (c, e') ∈ pre ∧ e'.SendsRequest id a

end Verif
