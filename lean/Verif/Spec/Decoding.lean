import Verif.Model.Values
/-!
# Specification: what a decoder may depend on, and which encodings are self-delimiting
-/

namespace Verif
open Py

/-- What the decoder `r` returns depends only on the bytes it consumes: the bytes it leaves are the end of the
input, and, unless it used up the whole input, it returns the same result from the bytes it consumed whatever
follows them, and leaves exactly what follows. -/
def Reader.Local {α : Type} (r : Reader α) : Prop :=
  ∀ input a rest, r input = .ok (a, rest) →
    ∃ used, input = used ++ rest ∧ (rest ≠ [] → ∀ rest', r (used ++ rest') = .ok (a, rest'))

/-- The encodings `w` of the values with `ok` are uniquely decodable and self-delimiting: when two byte sequences
that start with the encodings of two such values are equal, so are the values and what follows them. -/
def PrefixFree {α : Type} (w : α → W) (ok : α → Prop) : Prop :=
  ∀ a b x y, ok a → ok b → (w a).out ++ x = (w b).out ++ y → a = b ∧ x = y

end Verif
