/-!
# Specification: the four independent flags of a transport message
-/

namespace Verif.Spec

/-- What a header says about a message. -/
structure Flags where
  response : Bool
  error : Bool
  compress : Bool
  handshake : Bool
  deriving DecidableEq, Repr

/-- An assignment to one of the header's flag properties. -/
inductive Assign where
  | response (b : Bool)
  | request (b : Bool)
  | error (b : Bool)
  | compress (b : Bool)
  | handshake (b : Bool)
  deriving DecidableEq, Repr

/-- What the assignment should do: change that flag only (`request` is the negation of
`response`). -/
def Assign.effect (f : Flags) : Assign → Flags
  | .response b => { f with response := b }
  | .request b => { f with response := !b }
  | .error b => { f with error := b }
  | .compress b => { f with compress := b }
  | .handshake b => { f with handshake := b }

/-- The printable list of statuses. -/
def Flags.names (f : Flags) : List String :=
  [if f.response then "response" else "request"] ++ (if f.error then ["error"] else []) ++
  (if f.compress then ["compressed"] else []) ++ (if f.handshake then ["handshake"] else [])

end Verif.Spec
