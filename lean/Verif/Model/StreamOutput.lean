import Mathlib.Data.Nat.Bitwise
import Verif.Model.Values
import Verif.Model.Version
/-!
# transport/stream_output.py

`StreamOutput` is a `BytesIO` subclass; every method appends.  The model returns what is appended
and the exception, if one is raised (`W`).
-/

namespace Verif.StreamOutput
open Py

/-- `write_byte`, transport/stream_output.py:21-22. -/
def writeByte (b : Int) : W := toBytesSigned 1 b

/-- `write_int`, transport/stream_output.py:25-26. -/
def writeInt (i : Int) : W := toBytesSigned 4 i

/-- `write_long`, transport/stream_output.py:65-66. -/
def writeLong (i : Int) : W := toBytesSigned 8 i

/-- The loops of `write_v_int` and `v_int_size` terminate. -/
theorem shiftRight_lt {i : Nat} (h : ¬ (i >>> 7).ldiff 0x7F = 0) : i >>> 7 < i := by
  have hi : i ≠ 0 := by
    rintro rfl; apply h; simp [Nat.ldiff]
  rw [Nat.shiftRight_eq_div_pow]
  exact Nat.div_lt_self (by omega) (by decide)

/-- The `while True` loop of `write_v_int`, transport/stream_output.py:34-39, for `i ≥ 0x80`
(hence a natural number).  `Nat.ldiff i 0x7F` is `i & ~0x7F`. -/
def vIntLoop (i : Nat) : Bytes :=
  UInt8.ofNat ((i &&& 0x7F) ||| 0x80) ::
    (if (i >>> 7).ldiff 0x7F = 0 then [UInt8.ofNat (i >>> 7)] else vIntLoop (i >>> 7))
termination_by i
decreasing_by exact shiftRight_lt (by assumption)

/-- `write_v_int`, transport/stream_output.py:29-40.  A negative `i` takes the `write_byte`
branch, as in the code. -/
def writeVInt (i : Int) : W :=
  if i < 0x80 then writeByte i
  else W.emit (vIntLoop i.toNat)

/-- The `while True` loop of `v_int_size`, transport/stream_output.py:47-52. -/
def vIntSizeLoop (i : Nat) (result : Nat) : Nat :=
  if (i >>> 7).ldiff 0x7F = 0 then result + 1 + 1 else vIntSizeLoop (i >>> 7) (result + 1)
termination_by i
decreasing_by exact shiftRight_lt (by assumption)

/-- `v_int_size`, transport/stream_output.py:43-53. -/
def vIntSize (i : Int) : Nat :=
  if i < 0x80 then 1 else vIntSizeLoop i.toNat 0

/-- `version_size`, transport/stream_output.py:56-59. -/
def versionSize (v : Version) : Nat :=
  if Int.land v.id Version.MASK ≠ 0 then 4 else vIntSize v.id

/-- `write_version`, transport/stream_output.py:61-62. -/
def writeVersion (v : Version) : W := writeVInt v.id

/-- `write_byte_array`, transport/stream_output.py:68-70. -/
def writeByteArray (b : Bytes) : W := writeVInt b.length ++ W.emit b

/-- `write_v_long`, transport/stream_output.py:131-133. -/
def writeVLong (i : Int) : W := writeVInt i

/-- `write_z_long`, transport/stream_output.py:145-149. -/
def writeZLong (i : Int) : W :=
  let zigzag : Int := 2 * i.natAbs + (if i < 0 then 1 else 0)
  if zigzag >>> 64 > 0 then W.fail .value else writeVLong zigzag

/-- `write_string`, transport/stream_output.py:236-240. -/
def writeString (s : String) : W :=
  let char_count := (utf8 s).length
  writeVInt char_count ++ (if char_count > 0 then W.emit (utf8 s) else W.nil)

/-- `write_boolean`, transport/stream_output.py:275-276. -/
def writeBoolean (b : Bool) : W := writeByte (if b then 1 else 0)

/-- `write_string_array`, transport/stream_output.py:321-324. -/
def writeStringArray (a : List String) : W :=
  writeVInt a.length ++ W.forEach writeString a

/-- `write_string_set`, transport/stream_output.py:327-330; the set is given as the list of its
elements in iteration order. -/
def writeStringSet (a : List String) : W :=
  writeVInt a.length ++ W.forEach writeString a

/-- `write_string_to_string_dict`, transport/stream_output.py:348-352. -/
def writeStringDict (d : Dict String String) : W :=
  writeVInt d.length ++ W.forEach (fun kv => writeString kv.1 ++ writeString kv.2) d

/-- One length-prefixed string as counted by the size predictions,
transport/stream_output.py:358-359: `v_int_size(len(k))` (code points!) plus the encoded bytes. -/
def stringSize (s : String) : Nat := vIntSize s.length + (utf8 s).length

/-- `string_to_string_dict_size`, transport/stream_output.py:355-362. -/
def stringDictSize (d : Dict String String) : Nat :=
  d.foldl (fun result kv => result + stringSize kv.1 + stringSize kv.2) (vIntSize d.length)

/-- `write_string_to_string_array_dict`, transport/stream_output.py:364-368. -/
def writeStringArrayDict (d : Dict String (List String)) : W :=
  writeVInt d.length ++ W.forEach (fun kv => writeString kv.1 ++ writeStringArray kv.2) d

/-- `write_string_to_string_set_dict`, transport/stream_output.py:370-374; sets in iteration
order. -/
def writeStringSetDict (d : Dict String (List String)) : W :=
  writeVInt d.length ++ W.forEach (fun kv => writeString kv.1 ++ writeStringSet kv.2) d

/-- `string_to_string_collection_dict_size`, transport/stream_output.py:377-386. -/
def stringCollDictSize (d : Dict String (List String)) : Nat :=
  d.foldl (fun result kv =>
    kv.2.foldl (fun r s => r + stringSize s) (result + stringSize kv.1 + vIntSize kv.2.length))
    (vIntSize d.length)

mutual
/-- `write_generic_value`, transport/stream_output.py:612-630: a value of any other type falls
through all branches and nothing is written. -/
def writeGeneric : PyVal → W
  | .none => writeByte (-1)
  | .bool b => writeByte 5 ++ writeBoolean b
  | .str s => writeByte 0 ++ writeString s
  | .int i => writeByte 2 ++ writeLong i
  | .bytes b => writeByte 6 ++ writeByteArray b
  | .list l => writeByte 7 ++ (writeVInt l.length ++ writeGenericList l)
  | .other _ _ => W.nil
/-- The loop of `write_array_list`, transport/stream_output.py:504-507. -/
def writeGenericList : List PyVal → W
  | [] => W.nil
  | v :: vs => writeGeneric v ++ writeGenericList vs
end

/-- `write_array_list`, transport/stream_output.py:504-507. -/
def writeArrayList (l : List PyVal) : W := writeVInt l.length ++ writeGenericList l

/-- `write_enum`, transport/stream_output.py:1023-1024. -/
def writeEnum {α : Type} [PyEnum α] (e : α) : W := writeVInt (PyEnum.value e)

/-- `write_time_value`, transport/stream_output.py:1036-1038. -/
def writeTimeValue (tv : TimeValue) : W :=
  writeZLong tv.duration ++ writeByte tv.time_unit.value

/-- `ByteSizeValue.write_to`, transport/byte_size_value.py:65-68. -/
def writeByteSizeValue (v : ByteSizeValue) : W := writeZLong v.size ++ writeEnum v.unit

end Verif.StreamOutput
