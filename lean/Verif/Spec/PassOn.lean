import Verif.Spec.RoundTrip
import Verif.Spec.Domains
/-!
# Specification: what was read can be passed on (C129)
-/

namespace Verif
open Py

/-- Whatever `r` returns, from whatever bytes, `w` writes without an exception, and `r` reads the very same from what was
written (and stops where it ends, whatever follows). -/
def PassesOn {α : Type} (r : Reader α) (w : α → W) : Prop :=
  ∀ bs a rest, r bs = .ok (a, rest) → RoundTrips (w a) r a

end Verif
