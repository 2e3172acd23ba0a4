/-!
# Specification: route templates

A template is text with named placeholders; a route matches it when it is obtained by putting some
text in the place of each placeholder.
-/

namespace Verif.Spec

/-- A piece of a route template. -/
inductive Piece where
  | text (s : List Char)
  | placeholder (name : List Char)
  deriving DecidableEq, Repr

/-- The template as it is written: `/a/{x}/b`. -/
def templateText : List Piece → List Char
  | [] => []
  | .text s :: ps => s ++ templateText ps
  | .placeholder n :: ps => '{' :: (n ++ '}' :: templateText ps)

/-- `route` is the template with some text, any text, in the place of each placeholder. -/
inductive Fills : List Piece → List Char → Prop
  | nil : Fills [] []
  | text (s : List Char) {ps : List Piece} {r : List Char} (h : Fills ps r) : Fills (.text s :: ps) (s ++ r)
  | placeholder (name value : List Char) {ps : List Piece} {r : List Char} (h : Fills ps r) :
      Fills (.placeholder name :: ps) (value ++ r)

/-- Well-formed templates: no glob character or opening brace in the text, placeholder names
non-empty, without closing brace or newline. -/
def PieceOK : Piece → Prop
  | .text s => ∀ c ∈ s, c ≠ '*' ∧ c ≠ '?' ∧ c ≠ '[' ∧ c ≠ '{'
  | .placeholder n => n ≠ [] ∧ ∀ c ∈ n, c ≠ '}' ∧ c ≠ '\n'

instance (p : Piece) : Decidable (PieceOK p) := by
  cases p <;> unfold PieceOK <;> exact inferInstance

end Verif.Spec
