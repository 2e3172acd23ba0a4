import Verif.Conformance.StreamInput
import Verif.Model.StreamOutput
import Verif.Model.Setting
/-!
# The project's own unit tests, on the model: tests/transport/test_stream_output.py, and floats of test_stream_input.py

Tests of the model, not claims (see `Conformance/StreamInput.lean`).
-/

namespace Verif
open Py StreamInput StreamOutput

/-- The bytes written, if nothing is raised (tests/transport/test_stream_output.py). -/
def writes (w : W) : Option Bytes := match w.err with | none => some w.out | some _ => none

-- test_write_byte
example : writes (writeByte 42) = some [0x2a] ∧ (writeByte 256).err = some .overflow := by decide +kernel
-- test_write_int
example : writes (writeInt 42) = some [0x00, 0x00, 0x00, 0x2a] ∧ (writeInt 4294967296).err = some .overflow := by
  decide +kernel
-- test_write_v_int
example : writes (writeVInt 42) = some [0x2a] ∧
    (writes (writeVInt 127) = some [0x7f] ∧ vIntSize 127 = 1) ∧
    (writes (writeVInt 128) = some [0x80, 0x01] ∧ vIntSize 128 = 2) ∧
    (writes (writeVInt 16383) = some [0xff, 0x7f] ∧ vIntSize 16383 = 2) ∧
    (writes (writeVInt 16384) = some [0x80, 0x80, 0x01] ∧ vIntSize 16384 = 3) ∧
    (writes (writeVInt 2097151) = some [0xff, 0xff, 0x7f] ∧ vIntSize 2097151 = 3) ∧
    (writes (writeVInt 2097152) = some [0x80, 0x80, 0x80, 0x01] ∧ vIntSize 2097152 = 4) ∧
    (writes (writeVInt 268435455) = some [0xff, 0xff, 0xff, 0x7f] ∧ vIntSize 268435455 = 4) ∧
    (writes (writeVInt 268435456) = some [0x80, 0x80, 0x80, 0x80, 0x01] ∧ vIntSize 268435456 = 5) := by decide +kernel
-- test_write_v_long
example : writes (writeVLong 42) = some [0x2a] ∧ writes (writeVLong (2 ^ 7 - 1)) = some [0x7f] ∧
    writes (writeVLong (2 ^ 14 - 1)) = some [0xff, 0x7f] ∧
    writes (writeVLong (2 ^ 63 - 1)) = some [0xff, 0xff, 0xff, 0xff, 0xff, 0xff, 0xff, 0xff, 0x7f] ∧
    writes (writeVLong (2 ^ 63)) = some [0x80, 0x80, 0x80, 0x80, 0x80, 0x80, 0x80, 0x80, 0x80,
    0x01] := by decide +kernel
-- test_write_z_long
example : writes (writeZLong 21) = some [0x2a] ∧ writes (writeZLong (-21)) = some [0x2b] ∧
    writes (writeZLong 64) = some [0x80, 0x01] ∧ writes (writeZLong (-64)) = some [0x81, 0x01] ∧
    writes (writeZLong (2 ^ 13)) = some [0x80, 0x80, 0x01] ∧ writes (writeZLong (-(2 ^ 13))) = some [0x81, 0x80,
    0x01] ∧
    writes (writeZLong (2 ^ 62)) = some [0x80, 0x80, 0x80, 0x80, 0x80, 0x80, 0x80, 0x80, 0x80, 0x01] ∧
    writes (writeZLong (-(2 ^ 62))) = some [0x81, 0x80, 0x80, 0x80, 0x80, 0x80, 0x80, 0x80, 0x80, 0x01] ∧
    (writeZLong (2 ^ 63)).err = some .value := by decide +kernel
-- test_write_version, test_version_size
example : writes (writeVersion (Version.new 2100099)) = some [0x83, 0x97, 0x80, 0x41] ∧
    versionSize (Version.new 2100099) = 4 := by decide +kernel
-- test_write_version_zero, test_version_zero_size
example : writes (writeVersion ⟨0⟩) = some [0x00] ∧ versionSize ⟨0⟩ = 1 := by decide +kernel
-- test_write_long
example : writes (writeLong 5409454583320448) = some [0x00, 0x13, 0x37, 0xde, 0xca, 0xde, 0x0f,
    0x80] := by decide +kernel
-- test_write_byte_array, test_write_string
example : writes (writeByteArray [0x74, 0x65, 0x73, 0x74]) = some [0x04, 0x74, 0x65, 0x73, 0x74] ∧
    writes (writeString "test") = some [0x04, 0x74, 0x65, 0x73, 0x74] := by decide +kernel
-- test_write_float, 2.718281828459045 = 0x4005bf0a8b145769
example : writes (writeFloat ⟨0x4005bf0a8b145769, by decide⟩) = some [0x40, 0x2d, 0xf8, 0x54] ∧
    writes (writeFloat ⟨0x8000000000000000, by decide⟩) = some [0x80, 0x00, 0x00, 0x00] := by decide +kernel
-- test_write_double
example : writes (writeDouble ⟨0x4005bf0a8b145769, by decide⟩) = some [0x40, 0x05, 0xbf, 0x0a, 0x8b, 0x14, 0x57,
    0x69] := by
  decide +kernel
-- test_read_float (tests/transport/test_stream_input.py): 3.1415927410125732 = 0x400921fb60000000, inf
example : (readsFirst (do return (← readFloat, ← readFloat)) [0x40, 0x49, 0x0f, 0xdb, 0x7f, 0x80, 0x00, 0x00]).map
    (fun p => (p.1.bits, p.2.bits)) = .ok (0x400921fb60000000, 0x7ff0000000000000) := by decide +kernel
-- test_read_double
example : (readsFirst readDouble [0x40, 0x05, 0xbf, 0x0a, 0x8b, 0x14, 0x57,
    0x69]).map (·.bits) = .ok 0x4005bf0a8b145769 := by
  decide +kernel
-- test_write_boolean
example : writes (writeBoolean true ++ writeBoolean false) = some [0x01, 0x00] := by decide +kernel
-- test_write_string_array
example : writes (writeStringArray ["foo", "bar"]) = some [0x02, 0x03, 0x66, 0x6f, 0x6f, 0x03, 0x62, 0x61,
    0x72] := by decide +kernel
-- test_write_string_to_string_dict
example : writes (writeStringDict [("foo", "bar"), ("baz", "qux")]) = some [0x02, 0x03, 0x66, 0x6f, 0x6f, 0x03,
    0x62, 0x61, 0x72, 0x03, 0x62, 0x61, 0x7a, 0x03, 0x71, 0x75, 0x78] ∧
    stringDictSize [("foo", "bar"), ("baz", "qux")] = 17 := by decide +kernel
-- test_write_string_to_string_array_dict
example : writes (writeStringArrayDict [("foo", ["bar", "baz"]), ("qux", [])]) =
      some [0x02, 0x03, 0x66, 0x6f, 0x6f, 0x02, 0x03, 0x62, 0x61, 0x72, 0x03, 0x62, 0x61, 0x7a, 0x03, 0x71, 0x75,
    0x78, 0x00] ∧
    stringCollDictSize [("foo", ["bar", "baz"]), ("qux", [])] = [0x02, 0x03, 0x66, 0x6f, 0x6f, 0x02, 0x03, 0x62,
    0x61, 0x72, 0x03, 0x62, 0x61, 0x7a, 0x03, 0x71, 0x75, 0x78, 0x00].length := by
  decide +kernel
-- test_write_string_to_string_set_dict, both orders of the set
example : writes (writeStringSetDict [("foo", ["bar", "baz"]), ("qux", [])]) =
      some [0x02, 0x03, 0x66, 0x6f, 0x6f, 0x02, 0x03, 0x62, 0x61, 0x72, 0x03, 0x62, 0x61, 0x7a, 0x03, 0x71, 0x75,
    0x78, 0x00] ∧
    writes (writeStringSetDict [("foo", ["baz", "bar"]), ("qux", [])]) =
      some [0x02, 0x03, 0x66, 0x6f, 0x6f, 0x02, 0x03, 0x62, 0x61, 0x7a, 0x03, 0x62, 0x61, 0x72, 0x03, 0x71, 0x75,
    0x78, 0x00] := by decide +kernel
-- test_write_array_list
example : writes (writeArrayList [.str "foo", .str "bar"]) = some [0x02, 0x00, 0x03, 0x66, 0x6f, 0x6f, 0x00, 0x03,
    0x62, 0x61, 0x72] := by decide +kernel
-- test_write_generic_value
example : writes (writeGeneric .none ++ (writeGeneric (.str "test") ++ (writeGeneric (.int 42) ++ writeGeneric (.bool true)))) =
    some [0xff, 0x00, 0x04, 0x74, 0x65, 0x73, 0x74, 0x02, 0x00, 0x00, 0x00, 0x00, 0x00, 0x00, 0x00, 0x2a, 0x05,
    0x01] ∧
    writes (writeGeneric (.bytes [0x74, 0x65, 0x73, 0x74]) ++ writeGeneric (.list [.str "foo", .str "bar"])) =
      some [0x06, 0x04, 0x74, 0x65, 0x73, 0x74, 0x07, 0x02, 0x00, 0x03, 0x66, 0x6f, 0x6f, 0x00, 0x03, 0x62, 0x61,
    0x72] := by decide +kernel
-- test_write_enum, with an enum of the SDK
example : writes (writeEnum RestMethod.PUT) = some [0x02] := by decide +kernel
-- test_write_time_value
example : writes (writeTimeValue ⟨5, .MINUTES⟩) = some [0x0a, 0x04] ∧
    writes (writeTimeValue TimeParser.MINUS_ONE) = some [0x03, 0x02] ∧
    writes (writeTimeValue ⟨0, .NANOSECONDS⟩) = some [0x00, 0x00] := by decide +kernel

end Verif
