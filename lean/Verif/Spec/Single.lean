import Verif.Py.Float
/-!
# Specification: floats that single precision can express
-/

namespace Verif
open Py

/-- A float that single precision can express: the value of a 32-bit pattern that is not NaN. -/
def IsSingle (x : F64) : Prop := ∃ b < 2 ^ 32, b % 2 ^ 31 ≤ 255 * 2 ^ 23 ∧ x.bits = F64.ofSingleBits b

end Verif
