import Verif.Model.Values
import Verif.Spec.RoundTrip
/-!
# Specification: the values `write_generic_value` supports, and how deep they are nested
-/

namespace Verif

mutual
/-- None, booleans, 64-bit integers, strings and byte strings of at most 2^31 bytes, and lists
(of fewer than 2^35 elements) of such values. -/
def GenericOK : PyVal → Prop
  | .none => True
  | .bool _ => True
  | .str s => StrOK s
  | .int i => -(2 ^ 63) ≤ i ∧ i < 2 ^ 63
  | .bytes b => b.length ≤ 2 ^ 31
  | .list l => l.length < 2 ^ 35 ∧ GenericsOK l
  | .other _ _ => False
/-- All elements are supported. -/
def GenericsOK : List PyVal → Prop
  | [] => True
  | v :: vs => GenericOK v ∧ GenericsOK vs
end

mutual
/-- Nesting depth: 1 for a scalar, one more than the deepest element for a list. -/
def nesting : PyVal → Nat
  | .list l => nestings l + 1
  | _ => 1
/-- Maximum over the elements. -/
def nestings : List PyVal → Nat
  | [] => 0
  | v :: vs => max (nesting v) (nestings vs)
end

end Verif
