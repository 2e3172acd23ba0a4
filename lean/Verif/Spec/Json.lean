/-!
# Specification: JSON texts (RFC 8259)

The grammar, as a predicate on character sequences.
-/

namespace Verif.Json

/-- `ws`, RFC 8259 section 2. -/
def IsWs (l : List Char) : Prop := ∀ c ∈ l, c = ' ' ∨ c = '\t' ∨ c = '\n' ∨ c = '\r'

/-- A hexadecimal digit. -/
def IsHex (c : Char) : Prop := ('0' ≤ c ∧ c ≤ '9') ∨ ('a' ≤ c ∧ c ≤ 'f') ∨ ('A' ≤ c ∧ c ≤ 'F')

/-- `unescaped`: anything from U+0020 on but the quotation mark and the backslash. -/
def Unescaped (c : Char) : Prop := ' ' ≤ c ∧ c ≠ '"' ∧ c ≠ '\\'

/-- What is between the quotation marks of a string, RFC 8259 section 7. -/
inductive StringBody : List Char → Prop
  | nil : StringBody []
  | char {c l} : Unescaped c → StringBody l → StringBody (c :: l)
  | escape {c l} : c ∈ ['"', '\\', '/', 'b', 'f', 'n', 'r', 't'] → StringBody l → StringBody ('\\' :: c :: l)
  | unicode {a b c d l} : IsHex a → IsHex b → IsHex c → IsHex d → StringBody l →
      StringBody ('\\' :: 'u' :: a :: b :: c :: d :: l)

/-- A non-empty run of decimal digits. -/
def IsDigits (l : List Char) : Prop := l ≠ [] ∧ ∀ c ∈ l, '0' ≤ c ∧ c ≤ '9'

/-- `number`, RFC 8259 section 6: minus sign, integer part without leading zeros, fraction,
exponent. -/
def IsNumber (l : List Char) : Prop :=
  ∃ sign int frac exp, l = sign ++ int ++ frac ++ exp ∧ (sign = [] ∨ sign = ['-']) ∧
    (int = ['0'] ∨ (IsDigits int ∧ int.head? ≠ some '0')) ∧
    (frac = [] ∨ ∃ ds, frac = '.' :: ds ∧ IsDigits ds) ∧
    (exp = [] ∨ ∃ e s ds, exp = e :: (s ++ ds) ∧ (e = 'e' ∨ e = 'E') ∧ (s = [] ∨ s = ['-'] ∨ s = ['+']) ∧
      IsDigits ds)

/-- The syntactic categories of the grammar. -/
inductive Kind where
  | value | members | elements

/-- The grammar, RFC 8259 sections 2 to 5; white space is allowed around every value, name and
structural character. -/
inductive Derives : Kind → List Char → Prop
  | ws {l w w'} : IsWs w → IsWs w' → Derives .value l → Derives .value (w ++ l ++ w')
  | null : Derives .value "null".toList
  | true : Derives .value "true".toList
  | false : Derives .value "false".toList
  | number {l} : IsNumber l → Derives .value l
  | string {l} : StringBody l → Derives .value ('"' :: l ++ ['"'])
  | emptyObject {w} : IsWs w → Derives .value ('{' :: w ++ ['}'])
  | object {l} : Derives .members l → Derives .value ('{' :: l ++ ['}'])
  | emptyArray {w} : IsWs w → Derives .value ('[' :: w ++ [']'])
  | array {l} : Derives .elements l → Derives .value ('[' :: l ++ [']'])
  | member {w k w' v} : IsWs w → StringBody k → IsWs w' → Derives .value v →
      Derives .members (w ++ ('"' :: k ++ ['"']) ++ w' ++ ':' :: v)
  | moreMembers {a b} : Derives .members a → Derives .members b → Derives .members (a ++ ',' :: b)
  | element {v} : Derives .value v → Derives .elements v
  | moreElements {a b} : Derives .elements a → Derives .elements b → Derives .elements (a ++ ',' :: b)

/-- A JSON text: one value, possibly with white space around it. -/
def IsJson (s : String) : Prop := Derives .value s.toList

end Verif.Json

namespace Verif
open Json

/-- Where a scan of JSON text is: outside strings, inside one, behind a backslash inside one, before the `n + 1`
hexadecimal digits left of a unicode escape, or behind something no JSON string contains. -/
inductive Scan where
  | outside | inside | escaped | hex (n : Nat) | bad
  deriving DecidableEq

instance (c : Char) : Decidable (IsHex c) := by unfold IsHex; infer_instance

/-- One character. -/
def Scan.step : Scan → Char → Scan
  | .outside, c => if c = '"' then .inside else .outside
  | .inside, c => if c = '"' then .outside else if c = '\\' then .escaped else if ' ' ≤ c then .inside else .bad
  | .escaped, c =>
    if c ∈ ['"', '\\', '/', 'b', 'f', 'n', 'r', 't'] then .inside else if c = 'u' then .hex 3 else .bad
  | .hex n, c => if IsHex c then (match n with | 0 => .inside | n + 1 => .hex n) else .bad
  | .bad, _ => .bad

/-- A whole text. -/
def Scan.run (s : Scan) (l : List Char) : Scan := l.foldl Scan.step s

end Verif
