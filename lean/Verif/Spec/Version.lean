import Verif.Model.Version
/-!
# Specification: The parts of a version number
-/

namespace Verif
open Py

/-- Specification: `n` with bit 27 (OpenSearch's marker bit 0x08000000) cleared. -/
def clear27 (n : Nat) : Nat := n / 2 ^ 28 * 2 ^ 28 + n % 2 ^ 27

/-- Specification: the decimal components major, minor, revision, build of a version number. -/
def components (n : Nat) : Nat × Nat × Nat × Nat :=
  (n / 1000000 % 100, n / 10000 % 100, n / 100 % 100, n % 100)

end Verif
