import Verif.Model.TimeValue
/-!
# Specification: A number and a unit at the start of a text
-/

namespace Verif
open Py

variable (u : Unicode)

/-- The text starts with this number and this unit: decimal digits, spaces, then a maximal run of
word characters. -/
def StartsWith (text : String) (number : Nat) (unit : String) : Prop :=
  ∃ digits spaces rest : List Char, ∃ ds : List Nat,
    text.toList = digits ++ (spaces ++ (unit.toList ++ rest)) ∧ digits ≠ [] ∧
    digits.map u.digitVal = ds.map some ∧ number = ofDigits ds ∧
    (∀ c ∈ spaces, u.isSpace c = true) ∧ (∀ c ∈ unit.toList, u.isWord c = true) ∧
    ∀ c ∈ rest.head?, u.isWord c = false

end Verif
