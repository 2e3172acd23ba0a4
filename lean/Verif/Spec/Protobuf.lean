import Verif.Spec.Varint
/-!
# Specification: proto3 messages on the wire

Written from the protocol-buffer encoding documentation, independently of the model: a message is a
sequence of fields, each a tag (field number times eight plus wire type) and a payload.
-/

namespace Verif.Spec

/-- A varint of `n` of at most `limit` bytes.  Superfluous zero groups are allowed, as proto3 allows them:
a peer may write them. -/
structure PbVarint (limit : Nat) (bs : List UInt8) (n : Nat) : Prop where
  nonempty : bs ≠ []
  short : bs.length ≤ limit
  value : varintValue bs = n
  continuation : ∀ k (h : k < bs.length), 128 ≤ bs[k].toNat ↔ k + 1 < bs.length

/-- The tag of field `num` with wire type `wire`: field numbers are below 2^29, a tag takes at most five bytes. -/
def PbTag (num wire : Nat) (bs : List UInt8) : Prop :=
  0 < num ∧ num < 2 ^ 29 ∧ PbVarint 5 bs (num * 8 + wire)

/-- What a field carries. -/
inductive PbPayload where
  | varint (n : Nat)             -- wire type 0
  | eight (b : List UInt8)       -- wire type 1
  | bytes (b : List UInt8)       -- wire type 2
  | group (inner : List UInt8)   -- wire types 3 and 4, before and after
  | four (b : List UInt8)        -- wire type 5
  deriving DecidableEq, Repr

/-- The field numbered `num` with the given payload, not a group, is written as these bytes.  A varint holds 64 bits:
what ten bytes can hold above that does not count. -/
inductive PbPlain : Nat → PbPayload → List UInt8 → Prop
  | varint {num n tag v} : PbTag num 0 tag → PbVarint 10 v n → PbPlain num (.varint (n % 2 ^ 64)) (tag ++ v)
  | eight {num b tag} : PbTag num 1 tag → b.length = 8 → PbPlain num (.eight b) (tag ++ b)
  | bytes {num b tag len} : PbTag num 2 tag → PbVarint 5 len b.length → b.length < 2 ^ 31 →
      PbPlain num (.bytes b) (tag ++ (len ++ b))
  | four {num b tag} : PbTag num 5 tag → b.length = 4 → PbPlain num (.four b) (tag ++ b)

/-- A field of a message: its number, what it carries, and its bytes on the wire. -/
structure PbPart where
  num : Nat
  payload : PbPayload
  raw : List UInt8
  deriving DecidableEq, Repr

/-- The fields of a message, in the order of the wire; groups are nested at most `depth` deep. -/
inductive PbMessage : Nat → List PbPart → List UInt8 → Prop
  | nil {depth} : PbMessage depth [] []
  | plain {depth num p b fs bs} : PbPlain num p b → PbMessage depth fs bs →
      PbMessage depth (⟨num, p, b⟩ :: fs) (b ++ bs)
  | group {depth num start stop gs inner fs bs} : PbTag num 3 start → PbMessage depth gs inner → PbTag num 4 stop →
      PbMessage (depth + 1) fs bs →
      PbMessage (depth + 1) (⟨num, .group inner, start ++ (inner ++ stop)⟩ :: fs) ((start ++ (inner ++ stop)) ++ bs)

/-- The part is field `num`, length-delimited. -/
def PbPart.isBytes (num : Nat) (f : PbPart) : Bool :=
  match f.payload with
  | .bytes _ => f.num == num
  | _ => false

/-- The part is field `num`, a varint. -/
def PbPart.isVarint (num : Nat) (f : PbPart) : Bool :=
  match f.payload with
  | .varint _ => f.num == num
  | _ => false

/-- The length-delimited payloads of field `num`, in order. -/
def payloads (num : Nat) (fs : List PbPart) : List (List UInt8) :=
  fs.filterMap fun f => match f.payload with
    | .bytes b => if f.num = num then some b else none
    | _ => none

/-- The varints of field `num`, in order. -/
def varints (num : Nat) (fs : List PbPart) : List Nat :=
  fs.filterMap fun f => match f.payload with
    | .varint v => if f.num = num then some v else none
    | _ => none

/-- The bytes of the fields that are not `known`, in order. -/
def foreign (known : PbPart → Bool) (fs : List PbPart) : List UInt8 :=
  (fs.filter fun f => !known f).flatMap (·.raw)

/-- The fields an `ExtensionIdentity`, a `RegisterRestActions` and an `ExtensionRequest` have. -/
def identityKnows (f : PbPart) : Bool := f.isBytes 1
def actionsKnow (f : PbPart) : Bool := f.isBytes 1 || f.isBytes 2 || f.isBytes 3
def requestKnows (f : PbPart) : Bool := f.isBytes 1 || f.isVarint 2

/-- The bytes are well-formed fields, none of them `known`. -/
def Foreign (depth : Nat) (known : PbPart → Bool) (bs : List UInt8) : Prop :=
  ∃ fs, PbMessage depth fs bs ∧ ∀ f ∈ fs, known f = false

/-- The signed 32-bit number with the low 32 bits of `n`. -/
def IsInt32 (n : Nat) (i : Int) : Prop :=
  -(2 ^ 31) ≤ i ∧ i < 2 ^ 31 ∧ (2 ^ 32 : Int) ∣ n - i

end Verif.Spec
