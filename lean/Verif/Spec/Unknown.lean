import Verif.Model.Protobuf
import Verif.Spec.Protobuf
/-!
# Specification: the messages of the repository on the wire, and the unknown fields an object may hold

A message object keeps the bytes of the fields it does not know.  They are well-formed fields of other numbers or wire types:
none in a new object, and whatever was read otherwise (`C103_always_kept_well_formed`).
-/

namespace Verif
open Py Spec

/-- The unknown fields of a list of REST actions, and those of its identity. -/
def ActionsUnknownOK (m : RegisterRestActions) : Prop :=
  Foreign 100 actionsKnow m.unknown ∧ ∀ u, m.identity = some u → Foreign 99 identityKnows u.unknown

/-- The unknown fields of an extension request, and those of its identity. -/
def ExtensionUnknownOK (m : ExtensionRequest) : Prop :=
  Foreign 100 requestKnows m.unknown ∧ ∀ u, m.identity = some u → Foreign 99 identityKnows u.unknown

/-- The bytes are a list of REST actions: well-formed fields `fs`, among them the identity sub-messages `ids` with these unique
ids, and the actions and deprecated actions as UTF-8. -/
structure ActionsOnWire (bs : Bytes) (fs : List PbPart) (ids : List (List PbPart)) (names actions deprecated : List String) :
    Prop where
  message : PbMessage 100 fs bs
  identities : List.Forall₂ (PbMessage 99) ids (payloads 1 fs)
  names : ids.flatMap (payloads 1) = names.map utf8
  actions : payloads 2 fs = actions.map utf8
  deprecated : payloads 3 fs = deprecated.map utf8

/-- The bytes are an extension request. -/
structure RequestOnWire (bs : Bytes) (fs : List PbPart) (ids : List (List PbPart)) (names : List String) : Prop where
  message : PbMessage 100 fs bs
  identities : List.Forall₂ (PbMessage 99) ids (payloads 1 fs)
  names : ids.flatMap (payloads 1) = names.map utf8

/-- The identity these sub-messages amount to: absent unless it occurs, otherwise the last unique id given and all unknown
fields. -/
def identityOnWire (ids : List (List PbPart)) (names : List String) : Option ExtensionIdentity :=
  if ids = [] then none else some ⟨names.getLast?.getD "", ids.flatMap (foreign identityKnows)⟩

/-- A field by number and payload, however its tag and length are written. -/
def PbPart.content (f : PbPart) : Nat × PbPayload := (f.num, f.payload)

end Verif
