import Verif.Py.Basic
/-!
# Specification: the lines of a log
-/

namespace Verif

/-- A text that takes one line of a log: no line feed and no carriage return in it. -/
def OneLine (s : String) : Prop := '\n' ∉ s.toList ∧ '\r' ∉ s.toList

instance (s : String) : Decidable (OneLine s) := inferInstanceAs (Decidable (_ ∧ _))

/-- `line` is one of the lines (separated by line feeds) of `text`. -/
def HasLine (text line : String) : Prop :=
  ∃ before after : List Char, text.toList = before ++ (line.toList ++ after) ∧
    '\n' ∉ line.toList ∧ (before = [] ∨ before.getLast? = some '\n') ∧
    (after = [] ∨ after.head? = some '\n')

/-- Printable ASCII characters other than quotes and backslashes: those of the usual tokens. -/
def Clear (s : String) : Prop :=
  ∀ c ∈ s.toList, c ≠ '\'' ∧ c ≠ '"' ∧ c ≠ '\\' ∧ 32 ≤ c.toNat ∧ c.toNat < 127

end Verif
