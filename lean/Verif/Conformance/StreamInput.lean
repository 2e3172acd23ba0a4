import Verif.Model.StreamInput
import Verif.Py.Float
import Verif.Model.VersionDisplay
/-!
# The project's own unit tests, on the model: tests/transport/test_stream_input.py

These are tests of the model, not claims: each example is one test of /repo/tests, with the same inputs and the
same expected values, evaluated by the kernel.  They check that the model behaves as the authors of the code say
the code does.
-/

namespace Verif
open Py StreamInput

/-- The result of reading from these bytes, without what is left (tests/transport/test_stream_input.py). -/
def readsFirst {α : Type} (r : Reader α) (bs : Bytes) : Except Err α := (r bs).map Prod.fst

/-- Whether reading raises. -/
def raises {α : Type} (r : Reader α) (bs : Bytes) : Bool := match r bs with | .error _ => true | .ok _ => false

mutual
/-- Equality of values of the wire types, for evaluation (tests compare with `assertEqual`). -/
def same : PyVal → PyVal → Bool
  | .none, .none => true
  | .bool a, .bool b => a == b
  | .str a, .str b => a == b
  | .int a, .int b => a == b
  | .bytes a, .bytes b => a == b
  | .list a, .list b => sameList a b
  | _, _ => false
/-- The same for lists. -/
def sameList : List PyVal → List PyVal → Bool
  | [], [] => true
  | a :: as, b :: bs => same a b && sameList as bs
  | _, _ => false
end

/-- Whether a generic value is read from these bytes, and it is this one. -/
def readsValue (bs : Bytes) (v : PyVal) : Bool :=
  match readsFirst (readGeneric 9) bs with | .ok w => same v w | .error _ => false

-- test_read_byte
example : readsFirst (do return (← readByte, ← readByte)) [0x2a, 0xff] = .ok (42, -1) := by decide +kernel
-- test_read_bytes
example : readsFirst (readBytes 3) [0x27, 0x10, 0x42] = .ok [0x27, 0x10, 0x42] := by decide +kernel
-- test_read_int
example : readsFirst (do return (← readInt, ← readInt)) [0x00, 0x00, 0x00, 0x2a, 0xff, 0xff, 0xff,
    0xff] = .ok (42, -1) := by
  decide +kernel
-- test_read_short
example : readsFirst (do return (← readShort, ← readShort)) [0x12, 0x34, 0xff, 0xff] = .ok (4660, -1) := by decide +kernel
-- test_read_boolean
example : readsFirst (do return (← readBoolean, ← readBoolean)) [0x00, 0x01, 0x02] = .ok (false, true) ∧
    raises (do return (← readBoolean, ← readBoolean, ← readBoolean)) [0x00, 0x01, 0x02] = true := by decide +kernel
-- test_read_optional_boolean
example : readsFirst (do return (← readOptionalBoolean, ← readOptionalBoolean, ← readOptionalBoolean)) [0x00, 0x01,
    0x02, 0x03] =
      .ok (some false, some true, none) ∧ raises readOptionalBoolean [0x03] = true := by decide +kernel
-- test_read_v_int
example : readsFirst readVInt [0x2a] = .ok 42 ∧ readsFirst readVInt [0x80, 0x01] = .ok 128 ∧
    readsFirst readVInt [0x80, 0x80, 0x01] = .ok (128 ^ 2) ∧ readsFirst readVInt [0x80, 0x80, 0x80, 0x01] = .ok (128 ^ 3) ∧
    readsFirst readVInt [0x80, 0x80, 0x80, 0x80, 0x01] = .ok (128 ^ 4) ∧
    raises readVInt [0x80, 0x80, 0x80, 0x80, 0x80, 0x01] = true := by decide +kernel
-- test_read_version
example : (readsFirst readVersion [0x83, 0x97, 0x80, 0x41]).map (·.id) = .ok 136317827 := by decide +kernel
-- test_read_optional_int
example : readsFirst (do return (← readOptionalInt, ← readOptionalInt, ← readOptionalInt))
    [0x01, 0x00, 0x00, 0x00, 0x2a, 0x01, 0xff, 0xff, 0xff, 0xff,
    0x00] = .ok (some 42, some (-1), none) := by decide +kernel
-- test_read_long
example : readsFirst (do return (← readLong, ← readLong))
    [0x00, 0x00, 0x00, 0x01, 0x02, 0x03, 0x04, 0x05, 0xff, 0xff, 0xff, 0xff, 0xff, 0xff, 0xff,
    0xff] = .ok (4328719365, -1) := by decide +kernel
-- test_read_v_long
example : readsFirst readVLong [0x2a] = .ok 42 ∧ readsFirst readVLong [0x80, 0x01] = .ok 128 ∧
    readsFirst readVLong [0x80, 0x80, 0x01] = .ok (128 ^ 2) ∧
    readsFirst readVLong [0x80, 0x80, 0x80, 0x01] = .ok (128 ^ 3) ∧
    readsFirst readVLong [0x80, 0x80, 0x80, 0x80, 0x01] = .ok (128 ^ 4) ∧
    readsFirst readVLong [0x80, 0x80, 0x80, 0x80, 0x80, 0x01] = .ok (128 ^ 5) ∧
    readsFirst readVLong [0x80, 0x80, 0x80, 0x80, 0x80, 0x80, 0x01] = .ok (128 ^ 6) ∧
    readsFirst readVLong [0x80, 0x80, 0x80, 0x80, 0x80, 0x80, 0x80, 0x01] = .ok (128 ^ 7) ∧
    readsFirst readVLong [0x80, 0x80, 0x80, 0x80, 0x80, 0x80, 0x80, 0x80, 0x01] = .ok (128 ^ 8) ∧
    readsFirst readVLong [0x80, 0x80, 0x80, 0x80, 0x80, 0x80, 0x80, 0x80, 0x80, 0x01] = .ok (128 ^ 9) ∧
    raises readVLong [0x80, 0x80, 0x80, 0x80, 0x80, 0x80, 0x80, 0x80, 0x80, 0x80, 0x01] = true := by decide +kernel
-- test_read_optional_v_long
example : readsFirst readOptionalVLong [0x01, 0x80, 0x80, 0x80, 0x80, 0x80, 0x80, 0x80, 0x80, 0x80,
    0x01] = .ok (some (128 ^ 9)) ∧
    readsFirst readOptionalVLong [0x00, 0x80, 0x80, 0x80, 0x80, 0x80, 0x80, 0x80, 0x80, 0x80, 0x01] = .ok none ∧
    raises readOptionalVLong [0x01, 0x80, 0x80, 0x80, 0x80, 0x80, 0x80, 0x80, 0x80, 0x80, 0x80,
    0x01] = true := by decide +kernel
-- test_read_optional_long
example : readsFirst (do return (← readOptionalLong, ← readOptionalLong, ← readOptionalLong))
    [0x01, 0x00, 0x00, 0x00, 0x00, 0x00, 0x00, 0x00, 0x2a, 0x01, 0xff, 0xff, 0xff, 0xff, 0xff, 0xff, 0xff, 0xff,
    0x00] = .ok (some 42, some (-1), none) := by
  decide +kernel
-- test_read_z_long
example : readsFirst readZLong [0x2a] = .ok 21 ∧ readsFirst readZLong [0x2b] = .ok (-21) ∧
    readsFirst readZLong [0x80, 0x01] = .ok 64 ∧ readsFirst readZLong [0x81, 0x01] = .ok (-64) ∧
    readsFirst readZLong [0x80, 0x80, 0x01] = .ok (64 * 128) ∧ readsFirst readZLong [0x81, 0x80, 0x01] = .ok (-64 * 128) ∧
    readsFirst readZLong [0x80, 0x80, 0x80, 0x01] = .ok (64 * 128 ^ 2) ∧
    readsFirst readZLong [0x81, 0x80, 0x80, 0x01] = .ok (-64 * 128 ^ 2) ∧
    readsFirst readZLong [0x80, 0x80, 0x80, 0x80, 0x01] = .ok (64 * 128 ^ 3) ∧
    readsFirst readZLong [0x81, 0x80, 0x80, 0x80, 0x01] = .ok (-64 * 128 ^ 3) ∧
    readsFirst readZLong [0x80, 0x80, 0x80, 0x80, 0x80, 0x01] = .ok (64 * 128 ^ 4) ∧
    readsFirst readZLong [0x81, 0x80, 0x80, 0x80, 0x80, 0x01] = .ok (-64 * 128 ^ 4) ∧
    readsFirst readZLong [0x80, 0x80, 0x80, 0x80, 0x80, 0x80, 0x01] = .ok (64 * 128 ^ 5) ∧
    readsFirst readZLong [0x81, 0x80, 0x80, 0x80, 0x80, 0x80, 0x01] = .ok (-64 * 128 ^ 5) ∧
    readsFirst readZLong [0x80, 0x80, 0x80, 0x80, 0x80, 0x80, 0x80, 0x01] = .ok (64 * 128 ^ 6) ∧
    readsFirst readZLong [0x81, 0x80, 0x80, 0x80, 0x80, 0x80, 0x80, 0x01] = .ok (-64 * 128 ^ 6) ∧
    readsFirst readZLong [0x80, 0x80, 0x80, 0x80, 0x80, 0x80, 0x80, 0x80, 0x01] = .ok (64 * 128 ^ 7) ∧
    readsFirst readZLong [0x81, 0x80, 0x80, 0x80, 0x80, 0x80, 0x80, 0x80, 0x01] = .ok (-64 * 128 ^ 7) ∧
    readsFirst readZLong [0x80, 0x80, 0x80, 0x80, 0x80, 0x80, 0x80, 0x80, 0x80, 0x01] = .ok (64 * 128 ^ 8) ∧
    readsFirst readZLong [0x81, 0x80, 0x80, 0x80, 0x80, 0x80, 0x80, 0x80, 0x80, 0x01] = .ok (-64 * 128 ^ 8) ∧
    raises readZLong [0x80, 0x80, 0x80, 0x80, 0x80, 0x80, 0x80, 0x80, 0x80, 0x80, 0x01] = true := by decide +kernel
-- test_read_optional_string
example : readsFirst readOptionalString [0x01, 0x04, 0x74, 0x65, 0x73, 0x74] = .ok (some "test") ∧
    readsFirst readOptionalString [0x00, 0x04, 0x74, 0x65, 0x73, 0x74] = .ok none := by decide +kernel
-- test_read_array_size
example : readsFirst readArraySize [0x2a] = .ok 42 ∧ raises readArraySize [0x81, 0x80, 0x80, 0x80, 0x08] = true := by
  decide +kernel
-- test_read_string
example : readsFirst readString [0x04, 0x74, 0x65, 0x73, 0x74] = .ok "test" := by decide +kernel
-- test_read_string_array
example : readsFirst readStringArray [0x02, 0x03, 0x66, 0x6f, 0x6f, 0x03, 0x62, 0x61,
    0x72] = .ok ["foo", "bar"] := by decide +kernel
-- test_read_optional_string_array
example : readsFirst readOptionalStringArray [0x01, 0x02, 0x03, 0x66, 0x6f, 0x6f, 0x03, 0x62, 0x61,
    0x72] = .ok (some ["foo", "bar"]) ∧
    readsFirst readOptionalStringArray [0x00, 0x02, 0x03, 0x66, 0x6f, 0x6f, 0x03, 0x62, 0x61,
    0x72] = .ok none := by decide +kernel
-- test_read_string_to_string_dict
example : readsFirst readStringDict [0x02, 0x03, 0x66, 0x6f, 0x6f, 0x03, 0x62, 0x61, 0x72, 0x03, 0x62, 0x61, 0x7a,
    0x03, 0x71, 0x75, 0x78] = .ok [("foo", "bar"), ("baz", "qux")] ∧
    readsFirst readStringDict [0x00] = .ok [] := by decide +kernel
-- test_read_string_to_string_array_dict
example : readsFirst readStringArrayDict [0x02, 0x03, 0x66, 0x6f, 0x6f, 0x02, 0x03, 0x62, 0x61, 0x72, 0x03, 0x62, 0x61,
    0x7a, 0x03, 0x71, 0x75, 0x78, 0x00] =
      .ok [("foo", ["bar", "baz"]), ("qux", [])] ∧
    readsFirst readStringArrayDict [0x00] = .ok [] := by decide +kernel
-- test_read_string_to_string_set_dict (a set: the duplicate is gone)
example : readsFirst readStringSetDict [0x02, 0x03, 0x66, 0x6f, 0x6f, 0x03, 0x03, 0x62, 0x61, 0x72, 0x03, 0x62, 0x61,
    0x7a, 0x03, 0x62, 0x61, 0x72, 0x03, 0x71, 0x75, 0x78, 0x00] =
    .ok [("foo", ["bar", "baz"]), ("qux", [])] := by decide +kernel
-- test_read_generic_value
example : readsValue [0xff] .none = true := by decide +kernel
example : readsValue [0x00, 0x04, 0x74, 0x65, 0x73, 0x74] (.str "test") = true := by decide +kernel
example : readsValue [0x01, 0x00, 0x00, 0x00, 0x2a] (.int 42) = true := by decide +kernel
example : readsValue [0x02, 0x00, 0x00, 0x00, 0x01, 0x02, 0x03, 0x04,
    0x05] (.int 4328719365) = true := by decide +kernel
example : readsValue [0x05, 0x01] (.bool true) = true := by decide +kernel
example : readsValue [0x06, 0x00] (.bytes []) = true := by decide +kernel
example : readsValue [0x06, 0x03, 0x27, 0x10, 0x42] (.bytes [0x27, 0x10, 0x42]) = true := by decide +kernel
example : readsValue [0x07, 0x00] (.list []) = true := by decide +kernel
example : readsValue [0x07, 0x02, 0x00, 0x03, 0x66, 0x6f, 0x6f, 0x00, 0x03, 0x62, 0x61,
    0x72] (.list [.str "foo", .str "bar"]) = true := by decide +kernel
example : readsValue [0x0b, 0x2a] (.int 42) = true := by decide +kernel
example : readsValue [0x10, 0x00, 0x2a] (.int 42) = true := by decide +kernel
example : raises (readGeneric 9) [0xfe] = true := by decide +kernel
-- test_read_enum, with an enum of the SDK
example : readsFirst (readEnum RestMethod) [0x01] = .ok .POST := by decide +kernel
-- test_read_time_value
example : readsFirst readTimeValue [0x0a, 0x04] = .ok ⟨5, .MINUTES⟩ ∧
    (readsFirst readTimeValue [0x03, 0x02]).map (·.duration) = .ok (-1) ∧
    (readsFirst readTimeValue [0x00, 0x00]).map (·.duration) = .ok 0 := by decide +kernel

end Verif
