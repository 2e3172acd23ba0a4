import Mathlib.Data.Int.Bitwise
import Verif.Model.Values
import Verif.Model.Version
/-!
# transport/stream_input.py
-/

namespace Verif.StreamInput
open Py

/-- `self.data.read(n)` for `n ≥ 0`: at most `n` bytes, fewer at end of input. -/
def take (n : Nat) : Reader Bytes := fun bs => .ok (bs.take n, bs.drop n)

/-- `read_byte`, transport/stream_input.py:25-26 (0 at end of input). -/
def readByte : Reader Int := do
  let bs ← take 1
  pure (fromBytesSigned bs)

/-- `read_bytes`, transport/stream_input.py:28-29: `BytesIO.read(len)`; a negative `len` reads
everything that is left. -/
def readBytes (len : Int) : Reader Bytes := fun bs =>
  if len < 0 then .ok (bs, []) else take len.toNat bs

/-- `read_int`, transport/stream_input.py:31-32. -/
def readInt : Reader Int := do
  let bs ← take 4
  pure (fromBytesSigned bs)

/-- `read_short`, transport/stream_input.py:34-35. -/
def readShort : Reader Int := do
  let bs ← take 2
  pure (fromBytesSigned bs)

/-- `read_float` (n = 4) and `read_double` (n = 8), transport/stream_input.py:37-41; the float is
represented by its big-endian IEEE bytes.  `struct.unpack` raises unless it gets exactly `n`
bytes. -/
def readRaw (n : Nat) : Reader Bytes := do
  let bs ← readBytes n
  if bs.length = n then pure bs else Reader.throw .struct

/-- `read_boolean`, transport/stream_input.py:43-50. -/
def readBoolean : Reader Bool := do
  let value ← readByte
  if value = 0 then pure false
  else if value = 1 then pure true
  else Reader.throw .exception

/-- `read_optional_boolean`, transport/stream_input.py:52-61. -/
def readOptionalBoolean : Reader (Option Bool) := do
  let value ← readByte
  if value = 2 then pure none
  else if value = 0 then pure (some false)
  else if value = 1 then pure (some true)
  else Reader.throw .exception

/-- `b & 0x7F` of a signed byte, as in transport/stream_input.py:69. -/
def low7 (b : Int) : Nat := (Int.land b 0x7F).toNat

/-- `(b & 0x80) != 0` of a signed byte, as in transport/stream_input.py:70. -/
def more (b : Int) : Bool := Int.land b 0x80 ≠ 0

/-- `read_v_int`, transport/stream_input.py:67-87. -/
def readVInt : Reader Int := do
  let b ← readByte
  let i := low7 b
  if !more b then return i
  let b ← readByte
  let i := i ||| (low7 b <<< 7)
  if !more b then return i
  let b ← readByte
  let i := i ||| (low7 b <<< 14)
  if !more b then return i
  let b ← readByte
  let i := i ||| (low7 b <<< 21)
  if !more b then return i
  let b ← readByte
  if more b then Reader.throw .exception
  else return ((i ||| (low7 b <<< 28) : Nat) : Int)

/-- `read_version`, transport/stream_input.py:90-91. -/
def readVersion : Reader Version := do
  let i ← readVInt
  return Version.new (Int.xor i Version.MASK)

/-- `read_optional_int`, transport/stream_input.py:94-98. -/
def readOptionalInt : Reader (Option Int) := do
  if ← readBoolean then return some (← readInt) else return none

/-- `read_long`, transport/stream_input.py:100-101. -/
def readLong : Reader Int := do
  let bs ← take 8
  pure (fromBytesSigned bs)

/-- `read_v_long`, transport/stream_input.py:104-146. -/
def readVLong : Reader Int := do
  let b ← readByte
  let i := low7 b
  if !more b then return i
  let b ← readByte
  let i := i ||| (low7 b <<< 7)
  if !more b then return i
  let b ← readByte
  let i := i ||| (low7 b <<< 14)
  if !more b then return i
  let b ← readByte
  let i := i ||| (low7 b <<< 21)
  if !more b then return i
  let b ← readByte
  let i := i ||| (low7 b <<< 28)
  if !more b then return i
  let b ← readByte
  let i := i ||| (low7 b <<< 35)
  if !more b then return i
  let b ← readByte
  let i := i ||| (low7 b <<< 42)
  if !more b then return i
  let b ← readByte
  let i := i ||| (low7 b <<< 49)
  if !more b then return i
  let b ← readByte
  let i := i ||| (low7 b <<< 56)
  if !more b then return i
  let b ← readByte
  if b ≠ 0 ∧ b ≠ 1 then Reader.throw .exception
  else return ((i ||| (b.toNat <<< 63) : Nat) : Int)

/-- `read_z_long`, transport/stream_input.py:149-151. -/
def readZLong : Reader Int := do
  let z ← readVLong
  return (z >>> 1) * (if Int.land z 1 ≠ 0 then -1 else 1)

/-- `read_array_size`, transport/stream_input.py:162-166. -/
def readArraySize : Reader Int := do
  let array_size ← readVInt
  if array_size > 2 ^ 31 then Reader.throw .exception else return array_size

/-- `str(bytes, "utf-8")`. -/
def decodeStr (bs : Bytes) : Reader String :=
  match decodeUtf8? bs with
  | some s => pure s
  | none => Reader.throw .unicode

/-- `read_string`, transport/stream_input.py:168-169. -/
def readString : Reader String := do
  let n ← readArraySize
  let bs ← readBytes n
  decodeStr bs

/-- `read_optional_v_long`, transport/stream_input.py:153-154. -/
def readOptionalVLong : Reader (Option Int) := do
  if ← readBoolean then return some (← readVLong) else return none

/-- `read_optional_long`, transport/stream_input.py:156-157. -/
def readOptionalLong : Reader (Option Int) := do
  if ← readBoolean then return some (← readLong) else return none

/-- `read_optional_string`, transport/stream_input.py:159-160. -/
def readOptionalString : Reader (Option String) := do
  if ← readBoolean then return some (← readString) else return none

/-- `read_string_array`, transport/stream_input.py:171-180. -/
def readStringArray : Reader (List String) := do
  let size ← readArraySize
  readString.times size.toNat

/-- `read_optional_string_array`, transport/stream_input.py:182-186. -/
def readOptionalStringArray : Reader (Option (List String)) := do
  if ← readBoolean then return some (← readStringArray) else return none

/-- One iteration of the dict decoding loops, transport/stream_input.py:195-197: key, value. -/
def readItem {α : Type} (value : Reader α) : Reader (String × α) := do
  let key ← readString
  let v ← value
  return (key, v)

/-- The three dict decoding loops (transport/stream_input.py:188-199, 201-212, 214-227): the size
is a plain v_int; then `size` times `result[key] = value`.  Simplification: the items are read
first and then assigned in order (`Dict.ofItems`); reading does not depend on `result`. -/
def readDict {α : Type} (value : Reader α) : Reader (Dict String α) := do
  let size ← readVInt
  let items ← (readItem value).times size.toNat
  return Dict.ofItems items

/-- `read_string_to_string_dict`, transport/stream_input.py:188-199. -/
def readStringDict : Reader (Dict String String) := readDict readString

/-- `read_string_to_string_array_dict`, transport/stream_input.py:201-212. -/
def readStringArrayDict : Reader (Dict String (List String)) := readDict readStringArray

/-- `read_string_to_string_set_dict`, transport/stream_input.py:214-227: a set is represented by
its elements in order of first insertion. -/
def readStringSetDict : Reader (Dict String (List String)) := readDict (do
  let a ← readStringArray
  return pySet a)

/-- `read_byte_array`, transport/stream_input.py:273-275. -/
def readByteArray : Reader Bytes := do
  let size ← readArraySize
  if size > 0 then readBytes size else return []

/-- `read_generic_value` with `read_array_list`, transport/stream_input.py:229-271.  The argument
is the number of nested calls the interpreter still allows (`RecursionError` at 0). -/
def readGeneric : Nat → Reader PyVal
  | 0 => Reader.throw .recursion
  | depth + 1 => do
    let type ← readByte
    if type = -1 then return .none
    else if type = 0 then return .str (← readString)
    else if type = 1 then return .int (← readInt)
    else if type = 2 then return .int (← readLong)
    else if type = 5 then return .bool (← readBoolean)
    else if type = 6 then return .bytes (← readByteArray)
    else if type = 7 then do
      let n ← readVInt
      return .list (← (readGeneric depth).times n.toNat)
    else if type = 11 then return .int (← readByte)
    else if type = 16 then return .int (← readShort)
    else Reader.throw .exception

/-- `enum(n)`, transport/stream_input.py:278 (`ValueError` for an unknown ordinal). -/
def enumOf (α : Type) [PyEnum α] (n : Int) : Reader α :=
  match PyEnum.ofValue? (α := α) n with
  | some e => pure e
  | none => Reader.throw .value

/-- `read_enum`, transport/stream_input.py:277-278. -/
def readEnum (α : Type) [PyEnum α] : Reader α := do
  let n ← readVInt
  enumOf α n

/-- `read_time_value`, transport/stream_input.py:280-283. -/
def readTimeValue : Reader TimeValue := do
  let duration ← readZLong
  let unit ← readEnum TimeUnit
  return ⟨duration, unit⟩

/-- `ByteSizeValue.read_from`, transport/byte_size_value.py:60-63. -/
def readByteSizeValue : Reader ByteSizeValue := do
  let size ← readZLong
  let unit ← readEnum ByteSizeUnit
  return ⟨size, unit⟩

end Verif.StreamInput
