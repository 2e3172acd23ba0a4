import Verif.Spec.Template
/-!
# Specification: route paths with wildcards

What the documentation of Python's `fnmatch` says, for paths that may also have placeholders.
-/

namespace Verif.Spec

/-- A member of a set `[...]`: a character or a range of characters. -/
inductive SetItem where
  | char (c : Char)
  | range (a b : Char)
  deriving DecidableEq, Repr

/-- A piece of a path: text, `?`, `*`, a set `[...]` or `[!...]`, a placeholder `{name}`, a `[` that
begins no set, a `{` that begins no placeholder. -/
inductive GlobPiece where
  | text (s : List Char)
  | any
  | star
  | set (negated : Bool) (items : List SetItem)
  | placeholder (name : List Char)
  | bracket
  | brace
  deriving DecidableEq, Repr

/-- A member of a set as it is written. -/
def SetItem.text : SetItem → List Char
  | .char c => [c]
  | .range a b => [a, '-', b]

/-- The path as it is written. -/
def globText : List GlobPiece → List Char
  | [] => []
  | .text s :: ps => s ++ globText ps
  | .any :: ps => '?' :: globText ps
  | .star :: ps => '*' :: globText ps
  | .set neg items :: ps =>
    '[' :: ((if neg then ['!'] else []) ++ (items.flatMap SetItem.text ++ ']' :: globText ps))
  | .placeholder n :: ps => '{' :: (n ++ '}' :: globText ps)
  | .bracket :: ps => '[' :: globText ps
  | .brace :: ps => '{' :: globText ps

/-- The character is in the set. -/
def InSet (items : List SetItem) (x : Char) : Prop :=
  SetItem.char x ∈ items ∨ ∃ a b, SetItem.range a b ∈ items ∧ a ≤ x ∧ x ≤ b

/-- The route is covered by the path: `?` stands for one character, `*` and placeholders for any text, sets for one
character that is in them (or not in them, if negated). -/
inductive Covers : List GlobPiece → List Char → Prop
  | nil : Covers [] []
  | text (s : List Char) {ps : List GlobPiece} {r : List Char} (h : Covers ps r) : Covers (.text s :: ps) (s ++ r)
  | any (c : Char) {ps : List GlobPiece} {r : List Char} (h : Covers ps r) : Covers (.any :: ps) (c :: r)
  | star (value : List Char) {ps : List GlobPiece} {r : List Char} (h : Covers ps r) : Covers (.star :: ps) (value ++ r)
  | set {neg : Bool} {items : List SetItem} (c : Char) (hc : InSet items c ↔ neg = false) {ps : List GlobPiece}
      {r : List Char} (h : Covers ps r) : Covers (.set neg items :: ps) (c :: r)
  | placeholder (name value : List Char) {ps : List GlobPiece} {r : List Char} (h : Covers ps r) :
      Covers (.placeholder name :: ps) (value ++ r)
  | bracket {ps : List GlobPiece} {r : List Char} (h : Covers ps r) : Covers (.bracket :: ps) ('[' :: r)
  | brace {ps : List GlobPiece} {r : List Char} (h : Covers ps r) : Covers (.brace :: ps) ('{' :: r)

/-- The members of a set whose characters mean themselves: a `]` only at the very start of the set (`start`), a hyphen as a member or
as the lower end of a range only at the start and right behind a range (`free`), or as the last member.  Ranges may go downwards: then
no character is in them. -/
def SetOK : (start free : Bool) → List SetItem → Prop
  | _, _, [] => True
  | start, free, .char c :: is =>
    (c = ']' → start = true) ∧ (c = '-' → free = true ∨ is = []) ∧ c ≠ '{' ∧ SetOK false false is
  | start, free, .range a b :: is =>
    (a = ']' → start = true) ∧ (a = '-' → free = true) ∧ a ≠ '{' ∧ b ≠ ']' ∧ b ≠ '{' ∧ SetOK false true is

/-- Not a range that goes downwards. -/
def SetItem.upwards : SetItem → Bool
  | .char _ => true
  | .range a b => decide (a ≤ b)

/-- Well-formed pieces: no special character in the text, no empty set, a set that is not negated does not begin with
`!` (also not after ranges that go downwards, which `fnmatch` drops first), placeholder names non-empty, without closing brace or newline. -/
def GlobPieceOK : GlobPiece → Prop
  | .text s => ∀ c ∈ s, c ≠ '*' ∧ c ≠ '?' ∧ c ≠ '[' ∧ c ≠ '{'
  | .any => True
  | .star => True
  | .set neg items => items ≠ [] ∧ SetOK true true items ∧
      (neg = false → (items.flatMap SetItem.text).head? ≠ some '!' ∧
        ((items.filter SetItem.upwards).flatMap SetItem.text).head? ≠ some '!')
  | .placeholder n => n ≠ [] ∧ ∀ c ∈ n, c ≠ '}' ∧ c ≠ '\n'
  | .bracket => True
  | .brace => True

/-- Well-formed paths: well-formed pieces, and no `]` behind a `[` that
begins no set, a `{` that begins no placeholder. -/
def GlobOK : List GlobPiece → Prop
  | [] => True
  | p :: ps => GlobPieceOK p ∧ (p = .bracket → ']' ∉ globText ps) ∧ (p = .brace → '}' ∉ globText ps) ∧ GlobOK ps

end Verif.Spec
