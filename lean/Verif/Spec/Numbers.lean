import Verif.Py.Text
/-!
# Specification: how people may write whole numbers in settings (C131)
-/

namespace Verif
open Py

/-- One or more decimal digits, of whatever script, most significant first; between two of them there may be one underscore. -/
inductive Digits (u : Unicode) : List Char → List Nat → Prop
  | last {c : Char} {d : Nat} (h : u.digitVal c = some d) : Digits u [c] [d]
  | next {c : Char} {d : Nat} {cs : List Char} {ds : List Nat} (h : u.digitVal c = some d) (t : Digits u cs ds) :
      Digits u (c :: cs) (d :: ds)
  | grouped {c : Char} {d : Nat} {cs : List Char} {ds : List Nat} (h : u.digitVal c = some d) (t : Digits u cs ds) :
      Digits u (c :: '_' :: cs) (d :: ds)

/-- The number that decimal digits stand for. -/
def decimal : List Nat → Nat
  | [] => 0
  | d :: ds => d * 10 ^ ds.length + decimal ds

/-- White space, but not the four ASCII separators U+001C to U+001F. -/
def Blank (u : Unicode) (c : Char) : Prop := u.isSpace c = true ∧ ¬ (0x1C ≤ c.toNat ∧ c.toNat ≤ 0x1F)

/-- The text is this number: digits, with a sign or none, with blanks around or none, and not more digits than the interpreter is
configured to take. -/
def IsNumber (u : Unicode) (s : String) (n : Int) : Prop :=
  ∃ (before sign digits after : List Char) (ds : List Nat),
    s.toList = before ++ (sign ++ (digits ++ after)) ∧ (∀ c ∈ before, Blank u c) ∧ (∀ c ∈ after, Blank u c) ∧
    Digits u digits ds ∧ (∀ most, u.maxDigits = some most → ds.length ≤ most) ∧
    ((sign = [] ∧ n = decimal ds) ∨ (sign = ['+'] ∧ n = decimal ds) ∨ (sign = ['-'] ∧ n = - (decimal ds : Int)))

/-- The text starts with this amount of this unit: decimal digits of whatever script (no sign, no underscore), not more of them than
the interpreter is configured to take; white space or none; the unit; and then no further letter, digit or underscore. -/
def Amount (u : Unicode) (text : String) (n : Nat) (unit : String) : Prop :=
  ∃ (digits spaces rest : List Char) (ds : List Nat),
    text.toList = digits ++ (spaces ++ (unit.toList ++ rest)) ∧ digits ≠ [] ∧ digits.map u.digitVal = ds.map some ∧
    (∀ most, u.maxDigits = some most → ds.length ≤ most) ∧ n = decimal ds ∧
    (∀ c ∈ spaces, u.isSpace c = true) ∧ ∀ c ∈ rest.head?, u.isWord c = false

end Verif
