import Verif.Py.Str
/-!
# Python's `fnmatch.fnmatch` and the one `re.sub` of the SDK

`fnmatch.fnmatch(name, pat)` on POSIX is `re.match(fnmatch.translate(pat), name)`.  The model gives
the language of the translated pattern directly: `translate` (CPython 3.9-3.13, Lib/fnmatch.py) turns
`*` into `.*`, `?` into `.` (both with DOTALL), `[...]` into a character class and anything else into
itself; the whole name must match (`\Z`).  Runs of `*` are compressed and turned into atomic groups
by newer versions, which does not change what is matched.
-/

namespace Verif.Py

/-- One element of a translated pattern. -/
inductive Glob where
  | star                                          -- `*`
  | any                                           -- `?`
  | lit (c : Char)
  | cls (neg : Bool) (ranges : List (Char × Char))  -- `[...]`
  | never                                         -- an empty class
  deriving DecidableEq, Repr

namespace Glob

/-- Position of the first `-` at index `skip` or later (`str.find('-', skip)`). -/
def findHyphen : Nat → List Char → Option Nat
  | _, [] => none
  | 0, c :: cs => if c = '-' then some 0 else (findHyphen 0 cs).map (· + 1)
  | skip + 1, _ :: cs => (findHyphen skip cs).map (· + 1)

/-- Split the inside of a class at the hyphens that make ranges. -/
def chunks : Nat → Nat → List Char → List (List Char)
  | 0, _, s => [s]
  | fuel + 1, skip, s =>
    match findHyphen skip s with
    | none => [s]
    | some k => s.take k :: chunks fuel 2 (s.drop (k + 1))

/-- A hyphen at the very end is a literal one. -/
def fixTail : List (List Char) → List (List Char)
  | [c, []] => [c ++ ['-']]
  | c :: cs => c :: fixTail cs
  | [] => []

/-- Remove the ranges that are empty (`z-a`). -/
def fixRanges : List (List Char) → List (List Char)
  | [] => []
  | c :: cs =>
    match fixRanges cs with
    | d :: ds =>
      if c.getLastD ' ' > d.headD ' ' then (c.dropLast ++ d.tail) :: ds else c :: d :: ds
    | [] => [c]

/-- The characters and ranges of a class: the end of a chunk (`cur`) and the beginning of the next
one delimit a range. -/
def setItems (cur : List Char) : List (List Char) → List (Char × Char)
  | [] => cur.map fun x => (x, x)
  | (y :: d) :: rest => cur.dropLast.map (fun x => (x, x)) ++ (cur.getLastD ' ', y) :: setItems d rest
  | [] :: rest => cur.map (fun x => (x, x)) ++ setItems [] rest

/-- The inside of `[...]` as a class. -/
def classOf (stuff : List Char) : Glob :=
  let cs :=
    if stuff.contains '-' then
      fixRanges (fixTail (chunks stuff.length (if stuff.head? = some '!' then 2 else 1) stuff))
    else [stuff]
  match cs with
  | [] => .never
  | [[]] => .never
  | ['!' :: []] => .any
  | ('!' :: c) :: rest => .cls true (setItems c rest)
  | c :: rest => .cls false (setItems c rest)

/-- The inside of a class and what follows its `]`; `none` when it is not closed.  A `]` right after
the opening (and the optional `!`) is part of the class. -/
def splitClass (s : List Char) : Option (List Char × List Char) :=
  let bang := if s.head? = some '!' then 1 else 0
  let first := bang + (if (s.drop bang).head? = some ']' then 1 else 0)
  let body := (s.drop first).takeWhile (· ≠ ']')
  if (s.drop first).length = body.length then none
  else some (s.take first ++ body, (s.drop first).drop (body.length + 1))

/-- `fnmatch.translate`; `fuel` bounds the number of pattern characters. -/
def translate : Nat → List Char → List Glob
  | _, [] => []
  | 0, _ :: _ => []
  | fuel + 1, c :: cs =>
    if c = '*' then star :: translate fuel cs
    else if c = '?' then any :: translate fuel cs
    else if c = '[' then
      match splitClass cs with
      | none => lit '[' :: translate fuel cs
      | some (stuff, rest) => classOf stuff :: translate fuel rest
    else lit c :: translate fuel cs

/-- `*`: any number of characters, then the rest of the pattern. -/
def starMatch (rest : List Char → Bool) : List Char → Bool
  | [] => rest []
  | x :: cs => rest (x :: cs) || starMatch rest cs

/-- Does the whole name match? -/
def matchAll : List Glob → List Char → Bool
  | [], name => name.isEmpty
  | star :: ps, name => starMatch (matchAll ps) name
  | any :: ps, name => match name with
    | [] => false
    | _ :: cs => matchAll ps cs
  | lit c :: ps, name => match name with
    | [] => false
    | x :: cs => x == c && matchAll ps cs
  | cls neg rs :: ps, name => match name with
    | [] => false
    | x :: cs => (rs.any (fun r => decide (r.1 ≤ x) && decide (x ≤ r.2)) != neg) && matchAll ps cs
  | never :: _, _ => false

end Glob

/-- `fnmatch.fnmatch(name, pat)`. -/
def fnmatch (name pat : String) : Bool :=
  Glob.matchAll (Glob.translate pat.toList.length pat.toList) name.toList

/-- The text after the first `}` that comes before any newline. -/
def afterBrace : List Char → Option (List Char)
  | [] => none
  | c :: cs => if c = '}' then some cs else if c = '\n' then none else afterBrace cs

/-- What follows a match of `(.+?)\}`: at least one character that is not a newline, then up to the
first `}`, without a newline in between. -/
def afterName : List Char → Option (List Char)
  | [] => none
  | c :: cs => if c = '\n' then none else afterBrace cs

/-- `re.sub(r"\{(.+?)\}", "*", s)`, with a bound on the length. -/
def subBraces : Nat → List Char → List Char
  | _, [] => []
  | 0, _ :: _ => []
  | fuel + 1, c :: cs =>
    if c = '{' then
      match afterName cs with
      | some rest => '*' :: subBraces fuel rest
      | none => c :: subBraces fuel cs
    else c :: subBraces fuel cs

/-- `re.sub(r"\{(.+?)\}", "*", s)`. -/
def wildcard (s : String) : String := String.ofList (subBraces s.toList.length s.toList)

-- behaviour on sample patterns, against the CPython documentation and by hand
example : fnmatch "GET /a/b/c" "GET /a/*/c" = true := by decide +kernel
example : fnmatch "a]" "[]]]" = false ∧ fnmatch "]]" "[]]]" = true := by decide +kernel
example : fnmatch "b" "[a-c]" = true ∧ fnmatch "d" "[!a-c]" = true ∧ fnmatch "-" "[a-]" = true ∧
    fnmatch "z" "[z-a]" = false ∧ fnmatch "m" "[!z-a]" = true ∧ fnmatch "[x" "[x" = true := by
  decide +kernel
example : fnmatch "-" "[a-b-c]" = true ∧ fnmatch "c" "[a-b-c]" = true ∧ fnmatch "b" "[a-b-c]" = true ∧
    fnmatch "d" "[a-b-c]" = false := by decide +kernel
example : wildcard "GET /a/{b}/{c}" = "GET /a/*/*" ∧ wildcard "{}x}y" = "*y" ∧ wildcard "{}" = "{}" ∧
    wildcard "{a\nb}" = "{a\nb}" ∧ wildcard "{{a}}" = "*}" := by decide +kernel

end Verif.Py
