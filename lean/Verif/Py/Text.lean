import Verif.Py.Str
/-!
# Python text: `int(s)`, `str(i)`, `s.lower()` and the regular expression `(\d+)\s*(\w+)`

The Unicode database is a parameter (`Unicode`) with the few facts about it that the proofs use; all
of them hold for the database of CPython (checked over all code points, see DESIGN.md).
-/

namespace Verif.Py

/-- The Unicode database and the configuration of the interpreter. -/
structure Unicode where
  /-- `unicodedata.decimal(c)`: the value of a decimal digit.  `\d` matches exactly these, `int()` accepts
  exactly these. -/
  digitVal : Char → Option Nat
  /-- `c.isspace()`, `\s`. -/
  isSpace : Char → Bool
  /-- `\w`. -/
  isWord : Char → Bool
  /-- `s.lower()`. -/
  lower : String → String
  /-- `sys.get_int_max_str_digits()`; `none` when the limit is off. -/
  maxDigits : Option Nat
  digit_lt : ∀ c d, digitVal c = some d → d < 10
  digit_ascii : ∀ c : Char, c.isDigit = true → digitVal c = some (c.toNat - '0'.toNat)
  digit_word : ∀ c, (digitVal c).isSome → isWord c = true
  space_word : ∀ c, isWord c = true → isSpace c = false
  lower_word : ∀ c : Char, c.isLower = true → isWord c = true ∧ digitVal c = none
  minus : digitVal '-' = none ∧ isSpace '-' = false ∧ digitVal '+' = none ∧ digitVal '_' = none
  plus : isSpace '+' = false
  lower_ascii : ∀ s : String, (∀ c ∈ s.toList, c.val < 128) → lower s = String.ofList (s.toList.map Char.toLower)
  maxDigits_ge : ∀ n, maxDigits = some n → 640 ≤ n

variable (u : Unicode)

/-- Whether the interpreter converts numbers of this many digits. -/
def allowed (n : Nat) : Bool :=
  match u.maxDigits with
  | some m => n ≤ m
  | none => true

/-- `str(i)`; ValueError beyond the digit limit. -/
def strInt (i : Int) : Except Err String :=
  if allowed u (Nat.toDigits 10 i.natAbs).length then .ok (toString i) else .error .value

/-- Decimal digits, single underscores between them (the grammar of `int(s)`), most significant first. -/
def intDigits : List Char → Option (List Nat)
  | [] => none
  | c :: cs =>
    match u.digitVal c, cs with
    | none, _ => none
    | some d, [] => some [d]
    | some d, c' :: cs' =>
      if c' = '_' then (intDigits cs').map (d :: ·) else (intDigits (c' :: cs')).map (d :: ·)

/-- The value of a list of digits. -/
def ofDigits (l : List Nat) : Nat := l.foldl (fun acc d => 10 * acc + d) 0

/-- The whitespace `int(s)` ignores around the number: `isspace()` without U+001C to U+001F. -/
def intSpace (c : Char) : Bool := u.isSpace c && !(28 ≤ c.toNat && c.toNat ≤ 31)

/-- `s` without the surrounding whitespace that `int` ignores. -/
def intStrip (l : List Char) : List Char :=
  ((l.dropWhile (intSpace u)).reverse.dropWhile (intSpace u)).reverse

/-- The unsigned part of a number. -/
def natOfChars (l : List Char) : Except Err Nat :=
  match intDigits u l with
  | none => .error .value
  | some ds => if allowed u ds.length then .ok (ofDigits ds) else .error .value

/-- `int(s)` for a string. -/
def intOfStr (s : String) : Except Err Int :=
  match intStrip u s.toList with
  | '-' :: l => (natOfChars u l).map fun n => -(n : Int)
  | '+' :: l => (natOfChars u l).map fun n => (n : Int)
  | l => (natOfChars u l).map fun n => (n : Int)

/-- `\s*(\w+)` at the start of the text, as `re` matches it after the digits: the spaces and then the
longest run of word characters, `none` when there is none.  (Giving back a space never helps: it is not
a word character.) -/
def matchUnit (l : List Char) : Option (List Char) :=
  let w := (l.dropWhile u.isSpace).takeWhile u.isWord
  if w = [] then none else some w

/-- `re.match(r"(\d+)\s*(\w+)", s)`: the digits are matched greedily; if the rest does not match then
`re` gives digits back one by one, as long as at least one is left (`n` digits to try). -/
def matchFrom (l : List Char) : Nat → Option (List Char × List Char)
  | 0 => none
  | n + 1 =>
    match matchUnit u (l.drop (n + 1)) with
    | some w => some (l.take (n + 1), w)
    | none => matchFrom l n

/-- `re.match(r"(?P<duration>\d+)\s*(?P<unit>\w+)", s)`: the two groups. -/
def matchValue (s : String) : Option (String × String) :=
  (matchFrom u s.toList (s.toList.takeWhile fun c => (u.digitVal c).isSome).length).map fun p =>
    (String.ofList p.1, String.ofList p.2)

end Verif.Py
