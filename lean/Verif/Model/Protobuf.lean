import Verif.Model.Messages
/-!
# protobuf/*_pb2.py, transport/register_rest_actions_request.py, transport/extension_transport_request.py

The generated classes call into the protobuf runtime, which is not part of the repository.  The
model follows the proto3 wire format for the three messages of the repository's .proto files
(protobuf/ExtensionIdentityProto_pb2.py:26, protobuf/ExtensionRequestProto_pb2.py:27,
protobuf/RegisterRestActionsProto_pb2.py:27 embed the descriptors):

    message ExtensionIdentity   { string uniqueId = 1; }
    message ExtensionRequest    { ExtensionIdentity identity = 1; RequestType requestType = 2; }
    message RegisterRestActions { ExtensionIdentity identity = 1; repeated string restActions = 2;
                                  repeated string deprecatedRestActions = 3; }

poetry.lock pins protobuf 5.29.5, whose Python package parses with upb: a tag and a length take at most five bytes, a
varint at most ten (64 bits of it count), groups are skipped to a nesting of 100 messages, and the bytes of fields the
message does not have are kept and written again after the known fields.
-/

namespace Verif
open Py StreamInput StreamOutput

namespace Pb

/-- Base-128 varint, least significant group first. -/
def varint (n : Nat) : Bytes :=
  if n < 128 then [UInt8.ofNat n] else UInt8.ofNat (n % 128 + 128) :: varint (n / 128)
termination_by n
decreasing_by omega

/-- Decode a varint of at most `fuel` bytes. -/
def readVarint : Nat → Bytes → Option (Nat × Bytes)
  | 0, _ => none
  | _ + 1, [] => none
  | fuel + 1, b :: bs =>
    if b.toNat < 128 then some (b.toNat, bs)
    else match readVarint fuel bs with
      | some (v, rest) => some (b.toNat % 128 + 128 * v, rest)
      | none => none

/-- The payload of a field on the wire. -/
inductive Val where
  | int (n : Nat)        -- wire type 0
  | bytes (b : Bytes)    -- wire type 2
  | other                -- wire types 1 and 5, and groups: no message of the repository has them
  deriving DecidableEq, Repr

/-- A tag: field number times eight plus wire type. -/
def readTag (bs : Bytes) : Option (Nat × Bytes) :=
  match readVarint 5 bs with
  | some (tag, rest) => if tag < 2 ^ 32 ∧ 8 ≤ tag then some (tag, rest) else none
  | none => none

/-- A length-delimited payload. -/
def readLen (bs : Bytes) : Option (Bytes × Bytes) :=
  match readVarint 5 bs with
  | some (n, rest) => if n < 2 ^ 31 ∧ n ≤ rest.length then some (rest.take n, rest.drop n) else none
  | none => none

/-- The payload after a tag with this wire type, except for groups. -/
def readPlain (wire : Nat) (bs : Bytes) : Option (Val × Bytes) :=
  if wire = 0 then
    match readVarint 10 bs with
    | some (n, rest) => some (.int (n % 2 ^ 64), rest)
    | none => none
  else if wire = 1 then
    if 8 ≤ bs.length then some (.other, bs.drop 8) else none
  else if wire = 2 then
    match readLen bs with
    | some (b, rest) => some (.bytes b, rest)
    | none => none
  else if wire = 5 then
    if 4 ≤ bs.length then some (.other, bs.drop 4) else none
  else none

/-- Skip the rest of the groups with these numbers, innermost first, nested at most `depth` deep (`fuel` bounds the number
of fields; the length of the input is always enough). -/
def skipGroups (depth : Nat) : Nat → List Nat → Bytes → Option Bytes
  | _, [], bs => some bs
  | 0, _ :: _, _ => none
  | fuel + 1, num :: up, bs =>
    match readTag bs with
    | none => none
    | some (tag, rest) =>
      if tag % 8 = 4 then
        if tag / 8 = num then skipGroups depth fuel up rest else none
      else if tag % 8 = 3 then
        if up.length + 1 < depth then skipGroups depth fuel (tag / 8 :: num :: up) rest else none
      else
        match readPlain (tag % 8) rest with
        | none => none
        | some (_, rest) => skipGroups depth fuel (num :: up) rest

/-- One field: number and payload. -/
def readField (depth : Nat) (bs : Bytes) : Option ((Nat × Val) × Bytes) :=
  match readTag bs with
  | none => none
  | some (tag, rest) =>
    if tag % 8 = 3 then
      if depth = 0 then none
      else match skipGroups depth rest.length [tag / 8] rest with
        | none => none
        | some rest => some ((tag / 8, .other), rest)
    else
      match readPlain (tag % 8) rest with
      | none => none
      | some (v, rest) => some ((tag / 8, v), rest)

/-- A field with the bytes it was read from. -/
structure Field where
  num : Nat
  val : Val
  raw : Bytes
  deriving DecidableEq, Repr

/-- All fields of a message (`fuel` bounds the number of fields; the length of the input is always
enough, a field takes at least one byte). -/
def readFields (depth : Nat) : Nat → Bytes → Option (List Field)
  | _, [] => some []
  | 0, _ :: _ => none
  | fuel + 1, bs =>
    match readField depth bs with
    | none => none
    | some ((num, v), rest) =>
      match readFields depth fuel rest with
      | some fs => some (⟨num, v, bs.take (bs.length - rest.length)⟩ :: fs)
      | none => none

/-- The fields of a serialised message. -/
def fields (depth : Nat) (bs : Bytes) : Option (List Field) := readFields depth bs.length bs

/-- A length-delimited field. -/
def lenField (num : Nat) (b : Bytes) : Bytes := varint (num * 8 + 2) ++ varint b.length ++ b

/-- A varint field. -/
def intField (num : Nat) (n : Nat) : Bytes := varint (num * 8) ++ varint n

end Pb

/-- `ExtensionIdentity`; `unknown` holds the bytes of the fields it does not have. -/
structure ExtensionIdentity where
  uniqueId : String := ""
  unknown : Bytes := []
  deriving DecidableEq, Repr

namespace ExtensionIdentity

/-- `SerializeToString`: an empty proto3 string is not written. -/
def serialize (m : ExtensionIdentity) : Bytes :=
  (if m.uniqueId = "" then [] else Pb.lenField 1 (utf8 m.uniqueId)) ++ m.unknown

/-- Handling of one field by the parser: the last string wins; malformed UTF-8 is a DecodeError. -/
def step (m : ExtensionIdentity) (f : Pb.Field) : Option ExtensionIdentity :=
  match f with
  | ⟨1, .bytes b, _⟩ => (decodeUtf8? b).map fun s => { m with uniqueId := s }
  | ⟨_, _, raw⟩ => some { m with unknown := m.unknown ++ raw }

/-- Merge a serialised `ExtensionIdentity` into `m`; as a sub-message it is one level down. -/
def merge (m : ExtensionIdentity) (bs : Bytes) : Option ExtensionIdentity :=
  match Pb.fields 99 bs with
  | none => none
  | some fs => fs.foldl (fun acc f => acc.bind (fun m => step m f)) (some m)

end ExtensionIdentity

/-- `RegisterRestActions`; `identity` is `none` while the sub-message is absent. -/
structure RegisterRestActions where
  identity : Option ExtensionIdentity := none
  restActions : List String := []
  deprecatedRestActions : List String := []
  unknown : Bytes := []
  deriving DecidableEq, Repr

namespace RegisterRestActions

/-- `SerializeToString`. -/
def serialize (m : RegisterRestActions) : Bytes :=
  (match m.identity with
   | some u => Pb.lenField 1 u.serialize
   | none => []) ++
  (m.restActions.flatMap fun s => Pb.lenField 2 (utf8 s)) ++
  (m.deprecatedRestActions.flatMap fun s => Pb.lenField 3 (utf8 s)) ++ m.unknown

/-- Handling of one field by the parser. -/
def step (m : RegisterRestActions) (f : Pb.Field) : Option RegisterRestActions :=
  match f with
  | ⟨1, .bytes b, _⟩ => ((m.identity.getD {}).merge b).map fun u => { m with identity := some u }
  | ⟨2, .bytes b, _⟩ => (decodeUtf8? b).map fun s => { m with restActions := m.restActions ++ [s] }
  | ⟨3, .bytes b, _⟩ =>
    (decodeUtf8? b).map fun s => { m with deprecatedRestActions := m.deprecatedRestActions ++ [s] }
  | ⟨_, _, raw⟩ => some { m with unknown := m.unknown ++ raw }

/-- `RegisterRestActions().ParseFromString(bs)`. -/
def parse (bs : Bytes) : Option RegisterRestActions :=
  match Pb.fields 100 bs with
  | none => none
  | some fs => fs.foldl (fun acc f => acc.bind (fun m => step m f)) (some {})

end RegisterRestActions

/-- `ExtensionRequest`; the enum is open (proto3), any int32 is kept. -/
structure ExtensionRequest where
  identity : Option ExtensionIdentity := none
  requestType : Int := 0
  unknown : Bytes := []
  deriving DecidableEq, Repr

namespace ExtensionRequest

/-- The varint of an enum value: negative values as 64-bit two's complement. -/
def enumVarint (i : Int) : Nat := (i % 2 ^ 64).toNat

/-- An int32 from a decoded varint: the low 32 bits, signed. -/
def enumOfVarint (n : Nat) : Int :=
  if n % 2 ^ 32 < 2 ^ 31 then (n % 2 ^ 32 : Nat) else ((n % 2 ^ 32 : Nat) : Int) - 2 ^ 32

/-- `SerializeToString`: the default enum value 0 is not written. -/
def serialize (m : ExtensionRequest) : Bytes :=
  (match m.identity with
   | some u => Pb.lenField 1 u.serialize
   | none => []) ++
  (if m.requestType = 0 then [] else Pb.intField 2 (enumVarint m.requestType)) ++ m.unknown

/-- Handling of one field by the parser. -/
def step (m : ExtensionRequest) (f : Pb.Field) : Option ExtensionRequest :=
  match f with
  | ⟨1, .bytes b, _⟩ => ((m.identity.getD {}).merge b).map fun u => { m with identity := some u }
  | ⟨2, .int n, _⟩ => some { m with requestType := enumOfVarint n }
  | ⟨_, _, raw⟩ => some { m with unknown := m.unknown ++ raw }

/-- `ExtensionRequest().ParseFromString(bs)`. -/
def parse (bs : Bytes) : Option ExtensionRequest :=
  match Pb.fields 100 bs with
  | none => none
  | some fs => fs.foldl (fun acc f => acc.bind (fun m => step m f)) (some {})

end ExtensionRequest

/-- `m.ParseFromString(...)` raising DecodeError. -/
def orDecodeError {α : Type} : Option α → Reader α
  | some a => pure a
  | none => Reader.throw .proto

/-- `RegisterRestActionsRequest`, transport/register_rest_actions_request.py:18-29. -/
structure RegisterRestActionsRequest where
  parent_task_id : TaskId := {}
  rra : RegisterRestActions
  deriving DecidableEq, Repr

namespace RegisterRestActionsRequest
/-- `RegisterRestActionsRequest(...)`, transport/register_rest_actions_request.py:19-29.  Assigning
the sub-message's field makes it present. -/
def new (unique_id : String) (rest_actions deprecated_rest_actions : List String) :
    RegisterRestActionsRequest :=
  { rra := { identity := some { uniqueId := unique_id }, restActions := rest_actions, deprecatedRestActions := deprecated_rest_actions } }
/-- `read_from`, transport/register_rest_actions_request.py:31-36. -/
def readFrom : Reader RegisterRestActionsRequest := do
  let parent_task_id ← TaskId.readFrom
  let n ← readVInt
  let bs ← readBytes n
  let rra ← orDecodeError (RegisterRestActions.parse bs)
  return ⟨parent_task_id, rra⟩
/-- `write_to`, transport/register_rest_actions_request.py:38-43. -/
def writeTo (m : RegisterRestActionsRequest) : W :=
  m.parent_task_id.writeTo ++ (writeVInt m.rra.serialize.length ++ W.emit m.rra.serialize)
end RegisterRestActionsRequest

/-- `ExtensionTransportRequest`, transport/extension_transport_request.py:20-29. -/
structure ExtensionTransportRequest where
  parent_task_id : TaskId := {}
  er : ExtensionRequest
  deriving DecidableEq, Repr

namespace ExtensionTransportRequest
/-- `ExtensionTransportRequest(...)`, transport/extension_transport_request.py:21-29. -/
def new (request_type : RequestType) (unique_id : String) : ExtensionTransportRequest :=
  { er := { identity := some { uniqueId := unique_id }, requestType := request_type.value } }
/-- `read_from`, transport/extension_transport_request.py:31-36. -/
def readFrom : Reader ExtensionTransportRequest := do
  let parent_task_id ← TaskId.readFrom
  let n ← readVInt
  let bs ← readBytes n
  let er ← orDecodeError (ExtensionRequest.parse bs)
  return ⟨parent_task_id, er⟩
/-- `write_to`, transport/extension_transport_request.py:38-43. -/
def writeTo (m : ExtensionTransportRequest) : W :=
  m.parent_task_id.writeTo ++ (writeVInt m.er.serialize.length ++ W.emit m.er.serialize)
end ExtensionTransportRequest

end Verif
