import Verif.Py.Dict
/-!
# Specification: dict decoding with repeated keys
-/

namespace Verif.Spec

/-- The value that comes last for key `k` in a list of items. -/
def lastValue {ν : Type} (items : List (String × ν)) (k : String) : Option ν :=
  (items.reverse.find? (fun kv => kv.1 = k)).map (·.2)

/-- The distinct elements in order of first occurrence. -/
def firstOccurrences : List String → List String
  | [] => []
  | x :: xs => x :: (firstOccurrences xs).filter (· ≠ x)

end Verif.Spec
