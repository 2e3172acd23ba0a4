import Verif.Model.Sharing
/-!
# Specification: every object has its own attributes
-/

namespace Verif
variable {V : Type}

/-- An object as one thinks of it: its class, and the contents of its attributes, which nobody else can change; `given` says
whether the attribute was given to the constructor or has been read from a stream since. -/
structure OwnObject (V : Type) where
  klass : Klass
  contents : Shared → V
  given : Shared → Bool

/-- What one expects of the operations: each concerns one object only (settings/settings.py:19-31 and the other classes). -/
def ownStep (defaults : Shared → V) (objects : List (OwnObject V)) : ObjOp V → List (OwnObject V)
  | .construct k args => objects ++ [{
      klass := k
      contents := fun a => if k.takes a then (args a).getD (defaults a) else defaults a
      given := fun a => k.takes a && (args a).isSome }]
  | .change i a f => objects.modify i fun o =>
      { o with contents := fun b => if b = a ∧ a ∈ o.klass.attributes then f (o.contents b) else o.contents b }
  | .read i varhead values update => objects.modify i fun o =>
      { o with
        contents := fun b => match b.readEffect varhead with
          | .replace => values b
          | .inPlace => if b ∈ o.klass.attributes then update (o.contents b) else o.contents b
          | .keep => o.contents b
        given := fun b => o.given b || decide (b.readEffect varhead = .replace) }

/-- All operations. -/
def ownObjects (defaults : Shared → V) (ops : List (ObjOp V)) : List (OwnObject V) := ops.foldl (ownStep defaults) []

/-- The contents one expects in attribute `a` of the `i`-th object. -/
def expectedContents (defaults : Shared → V) (ops : List (ObjOp V)) (i : Nat) (a : Shared) : Option V :=
  ((ownObjects defaults ops)[i]?).bind fun o => if a ∈ o.klass.attributes then some (o.contents a) else none

/-- Whether attribute `a` of the `i`-th object was given to its constructor, or read since. -/
def isGiven (defaults : Shared → V) (ops : List (ObjOp V)) (i : Nat) (a : Shared) : Bool :=
  ((ownObjects defaults ops)[i]?).any fun o => o.given a

/-- The change, if any, that an operation makes in place to attribute `a` of an object to which it had not been given. -/
def changeOf (a : Shared) (objects : List (OwnObject V)) : ObjOp V → List (V → V)
  | .change i b f => if b = a ∧ (objects[i]?).any (fun o => decide (a ∈ o.klass.attributes) && !o.given a) then [f] else []
  | .read i _ _ update =>
    if a = .settings ∧ (objects[i]?).any (fun o => decide (a ∈ o.klass.attributes) && !o.given a) then [update] else []
  | .construct _ _ => []

/-- The changes, in order, that were made in place to attribute `a` of any object to which it had not been given. -/
def changesOfDefault (a : Shared) (objects : List (OwnObject V)) (defaults : Shared → V) : List (ObjOp V) → List (V → V)
  | [] => []
  | op :: ops => changeOf a objects op ++ changesOfDefault a (ownStep defaults objects op) defaults ops

end Verif
