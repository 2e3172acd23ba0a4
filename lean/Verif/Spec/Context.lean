import Verif.Model.Message
/-!
# Specification: when two thread contexts are the same
-/

namespace Verif

/-- Two contexts are the same up to the iteration order of their sets. -/
def SameContext (c c' : ThreadContext) : Prop :=
  c.request_headers = c'.request_headers ∧
  List.Forall₂ (fun a b => a.1 = b.1 ∧ a.2.Perm b.2) c.response_headers c'.response_headers

end Verif
