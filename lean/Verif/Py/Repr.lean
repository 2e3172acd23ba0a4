import Verif.Py.Dict
import Verif.Py.Str
/-!
# Python's `repr` of strings, bytes, lists, dicts, sets and tuples

What an f-string shows of the containers the message classes print (the `__str__` methods of
/repo/src/opensearch_sdk_py, see `Model/Display.lean`).  Which characters beyond ASCII are
printable (`str.isprintable`, a Unicode table) is a parameter.
-/

namespace Verif.Py

/-- `"0123456789abcdef"[n]`. -/
def hexDigit (n : Nat) : Char := (Nat.toDigits 16 (n % 16)).headD '0'

/-- The last `width` hexadecimal digits of `n`, most significant first. -/
def hexDigits (n : Nat) : Nat → List Char
  | 0 => []
  | w + 1 => hexDigits (n / 16) w ++ [hexDigit n]

/-- One character inside a quoted text, as CPython's `unicode_repr` writes it. -/
def reprChar (printable : Char → Bool) (quote c : Char) : List Char :=
  if c = quote ∨ c = '\\' then ['\\', c]
  else if c = '\t' then ['\\', 't']
  else if c = '\n' then ['\\', 'n']
  else if c = '\r' then ['\\', 'r']
  else if c.toNat < 32 ∨ c.toNat = 127 then '\\' :: 'x' :: hexDigits c.toNat 2
  else if c.toNat < 127 then [c]
  else if printable c then [c]
  else if c.toNat < 2 ^ 8 then '\\' :: 'x' :: hexDigits c.toNat 2
  else if c.toNat < 2 ^ 16 then '\\' :: 'u' :: hexDigits c.toNat 4
  else '\\' :: 'U' :: hexDigits c.toNat 8

/-- The quotes `repr` puts: single, unless the text has single quotes and no double ones. -/
def reprQuote (l : List Char) : Char := if '\'' ∈ l ∧ '"' ∉ l then '"' else '\''

/-- `repr(s)` of a `str`. -/
def strRepr (printable : Char → Bool) (s : String) : String :=
  let q := reprQuote s.toList
  String.ofList (q :: (s.toList.flatMap (reprChar printable q) ++ [q]))

/-- `repr(b)` of a `bytes`: as for a `str` of the same code points, those beyond ASCII escaped, with
a `b` in front. -/
def bytesRepr (b : Bytes) : String :=
  "b" ++ strRepr (fun _ => false) (String.ofList (b.map fun x => Char.ofNat x.toNat))

/-- `", ".join(items)`. -/
def joinComma : List String → String
  | [] => ""
  | [a] => a
  | a :: b :: r => a ++ ", " ++ joinComma (b :: r)

/-- `repr` of a `list` of given items. -/
def listRepr (items : List String) : String := "[" ++ joinComma items ++ "]"

/-- `repr` of a `dict` of given keys and values. -/
def dictRepr (items : List (String × String)) : String :=
  "{" ++ joinComma (items.map fun kv => kv.1 ++ ": " ++ kv.2) ++ "}"

/-- `repr` of a `set` of given items. -/
def setRepr (items : List String) : String :=
  if items = [] then "set()" else "{" ++ joinComma items ++ "}"

/-- `repr` of a `tuple` of at least two items. -/
def tupleRepr (items : List String) : String := "(" ++ joinComma items ++ ")"

/-- `repr` of a `bool`. -/
def boolRepr (b : Bool) : String := if b then "True" else "False"

end Verif.Py
