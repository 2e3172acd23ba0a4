import Verif.Model.Settings
import Verif.Model.TimeValue
import Verif.Py.Float
/-!
# settings/: typed settings, their parsers and validators

Arguments are assumed to have the annotated types.  Exception messages are not modelled (computing one
calls `str` on bounds, which can itself only raise ValueError, the class of the exception being raised).
-/

namespace Verif
open Py StreamInput StreamOutput

/-- `bool(v)`, as in `if s_value`, settings/settings.py:42. -/
def PyVal.truthy : PyVal → Bool
  | .none => false
  | .bool b => b
  | .str s => s ≠ ""
  | .int i => i ≠ 0
  | .bytes b => b ≠ []
  | .list l => !l.isEmpty
  | .other t _ => t

/-- The text conversions of the interpreter the settings rely on: the Unicode database, `str(v)` of
bytes, lists and None (a parameter: only ever passed on as text), and floats. -/
structure Interp where
  u : Unicode
  repr : PyVal → Except Err String
  float : FloatText

/-- `str(v)`, as in settings/settings.py:42. -/
def PyVal.text (py : Interp) : PyVal → Except Err String
  | .str s => .ok s
  | .int i => strInt py.u i
  | .bool b => .ok (if b then "True" else "False")
  | .other _ t => .ok t
  | v => py.repr v

/-- `Settings.get`, settings/settings.py:40-42. -/
def Settings.get (py : Interp) (d : Dict String PyVal) (setting : String) (default : Option String := none) :
    Except Err (Option String) :=
  match d.get? setting with
  | some v => if v.truthy then (v.text py).map some else .ok default
  | none => .ok default

/-- `Setting.Property`, settings/setting.py:35. -/
inductive Property where
  | FILTERED | DYNAMIC | FINAL | DEPRECATED | NODE_SCOPE | CONSISTENT | INDEX_SCOPE | NOT_COPYABLE_ON_RESIZE
  | INTERNAL_INDEX | PRIVATE_INDEX | EXTENSION_SCOPE
  deriving DecidableEq, Repr

/-- `Setting.Type`, settings/setting.py:37. -/
inductive SettingType where
  | BOOLEAN | INTEGER | LONG | FLOAT | DOUBLE | STRING | TIME_VALUE | BYTE_SIZE_VALUE | VERSION
  deriving DecidableEq, Repr

/-- What ends up in a `*properties` tuple: a property, or a tuple passed on as one argument (every
subclass calls `super().__init__(..., properties)` and `Parser(..., properties)` without a star, e.g.
settings/integer_setting.py:22,24). -/
inductive PropArg where
  | prop (p : Property)
  | tuple (l : List Property)
  deriving DecidableEq, Repr

/-- `Setting.Property.FILTERED in properties`, settings/integer_setting.py:35 and the same line in the other
parsers: membership compares with `==`, and a tuple is never equal to an enum member. -/
def filteredIn (properties : List PropArg) : Bool := properties.any fun a => a == .prop .FILTERED

/-- A parser class: its `parse` method; settings/parser.py:17-25. -/
class SettingParser (P : Type) (α : outParam Type) where
  parse : Interp → P → String → Except Err α

/-- `Setting`, settings/setting.py:19-27.  A validator is what its `validate` method does to a string
(returning, or raising).  `fallback` is stored and never read, so it is left out. -/
structure Setting (P : Type) where
  type : SettingType
  key : String
  default_value : Dict String PyVal → Except Err String
  parser : P
  validator : Option (String → Except Err Unit)
  properties : List PropArg

/-- `Setting.get`, settings/setting.py:29-33.  `if value`: an empty string counts as missing. -/
def Setting.get {P α : Type} [SettingParser P α] (py : Interp) (st : Setting P) (settings : Dict String PyVal) :
    Except Err α := do
  match (← Settings.get py settings st.key) with
  | some value =>
    if value ≠ "" then
      match st.validator with
      | some validate => validate value
      | none => pure ()
      SettingParser.parse py st.parser value
    else SettingParser.parse py st.parser (← st.default_value settings)
  | none => SettingParser.parse py st.parser (← st.default_value settings)

/-! ## IntegerSetting and LongSetting -/

/-- `IntegerSetting.Parser` / `LongSetting.Parser` objects, settings/integer_setting.py:26-35,
settings/long_setting.py:25-34. -/
structure IntParser where
  min_value : Int
  max_value : Int
  key : String
  is_filtered : Bool
  deriving DecidableEq, Repr

namespace IntParser

/-- `Parser.__init__`; `w` is 32 for settings/integer_setting.py:27-35 and 64 for
settings/long_setting.py:26-34 (`MIN_VALUE`, `MAX_VALUE`: lines 18-19 and 17-18). -/
def new (w : Nat) (min_value max_value : Int) (key : String) (properties : List PropArg) : Except Err IntParser :=
  if ¬ (-(2 ^ (w - 1)) ≤ min_value ∧ min_value ≤ 2 ^ (w - 1) - 1) then .error .value
  else if ¬ (-(2 ^ (w - 1)) ≤ max_value ∧ max_value ≤ 2 ^ (w - 1) - 1) then .error .value
  else .ok ⟨min_value, max_value, key, filteredIn properties⟩

/-- `bounds_check`, settings/integer_setting.py:40-43, settings/long_setting.py:39-42. -/
def boundsCheck (p : IntParser) (value : Int) : Except Err Int :=
  if ¬ (p.min_value ≤ value ∧ value ≤ p.max_value) then .error .value else .ok value

/-- `parse`, settings/integer_setting.py:37-38, settings/long_setting.py:36-37. -/
def parse (py : Interp) (p : IntParser) (s : String) : Except Err Int := do
  p.boundsCheck (← intOfStr py.u s)

instance : SettingParser IntParser Int := ⟨parse⟩

/-- `IntegerSetting.Parser.read_from`, settings/integer_setting.py:45-50. -/
def readFrom : Reader IntParser := do
  let min_value ← readInt
  let max_value ← readInt
  let key ← readString
  let is_filtered ← readBoolean
  return ⟨min_value, max_value, key, is_filtered⟩

/-- `IntegerSetting.Parser.write_to`, settings/integer_setting.py:52-57. -/
def writeTo (p : IntParser) : W :=
  writeInt p.min_value ++ (writeInt p.max_value ++ (writeString p.key ++ writeBoolean p.is_filtered))

/-- `LongSetting.Parser.read_from`, settings/long_setting.py:44-49. -/
def readLongFrom : Reader IntParser := do
  let min_value ← readLong
  let max_value ← readLong
  let key ← readString
  let is_filtered ← readBoolean
  return ⟨min_value, max_value, key, is_filtered⟩

/-- `LongSetting.Parser.write_to`, settings/long_setting.py:51-56. -/
def writeLongTo (p : IntParser) : W :=
  writeLong p.min_value ++ (writeLong p.max_value ++ (writeString p.key ++ writeBoolean p.is_filtered))

end IntParser

/-- `IntegerSetting(key, default, min, max, *properties)`, settings/integer_setting.py:21-24. -/
def IntegerSetting (py : Interp) (key : String) (default_value : Int) (min_value : Int := -(2 ^ 31))
    (max_value : Int := 2 ^ 31 - 1) (properties : List Property := []) : Except Err (Setting IntParser) := do
  let parser ← IntParser.new 32 min_value max_value key [.tuple properties]
  let _ ← parser.boundsCheck default_value
  return ⟨.INTEGER, key, fun _ => strInt py.u default_value, parser, none, [.tuple properties]⟩

/-- `LongSetting(key, default, min, max, *properties)`, settings/long_setting.py:20-23 (the type is
INTEGER there, too). -/
def LongSetting (py : Interp) (key : String) (default_value : Int) (min_value : Int := -(2 ^ 63))
    (max_value : Int := 2 ^ 63 - 1) (properties : List Property := []) : Except Err (Setting IntParser) := do
  let parser ← IntParser.new 64 min_value max_value key [.tuple properties]
  let _ ← parser.boundsCheck default_value
  return ⟨.INTEGER, key, fun _ => strInt py.u default_value, parser, none, [.tuple properties]⟩

/-! ## FloatSetting and DoubleSetting -/

/-- `FloatSetting.Parser` / `DoubleSetting.Parser` objects, settings/float_setting.py:22-27,
settings/double_setting.py:22-27 (their constructors check nothing). -/
structure FloatParser where
  min_value : F64
  max_value : F64
  key : String
  is_filtered : Bool
  deriving DecidableEq, Repr

/-- `write_double`, transport/stream_output.py:254-255. -/
def writeDouble (x : F64) : W := W.emit (beDigits 8 x.bits)

/-- `read_double`, transport/stream_input.py:40-41. -/
def readDouble : Reader F64 := do
  let bs ← readRaw 8
  if h : natOfBE bs < 2 ^ 64 then return ⟨natOfBE bs, h⟩ else Reader.throw .struct

/-- `write_float`, transport/stream_output.py:251-252. -/
def writeFloat (x : F64) : W :=
  match x.toSingle with
  | .ok b => W.emit (beDigits 4 b)
  | .error e => W.fail e

/-- `read_float`, transport/stream_input.py:37-38. -/
def readFloat : Reader F64 := do
  let bs ← readRaw 4
  if h : F64.ofSingleBits (natOfBE bs) < 2 ^ 64 then return ⟨F64.ofSingleBits (natOfBE bs), h⟩
  else Reader.throw .struct

namespace FloatParser

/-- `Parser.__init__`, settings/float_setting.py:23-27, settings/double_setting.py:23-27. -/
def new (min_value max_value : F64) (key : String) (properties : List PropArg) : FloatParser :=
  ⟨min_value, max_value, key, filteredIn properties⟩

/-- `bounds_check`, settings/float_setting.py:32-35, settings/double_setting.py:32-35. -/
def boundsCheck (p : FloatParser) (value : F64) : Except Err F64 :=
  if ¬ (p.min_value.le value ∧ value.le p.max_value) then .error .value else .ok value

/-- `parse`, settings/float_setting.py:29-30, settings/double_setting.py:29-30. -/
def parse (py : Interp) (p : FloatParser) (s : String) : Except Err F64 := do
  p.boundsCheck (← py.float.parse s)

instance : SettingParser FloatParser F64 := ⟨parse⟩

/-- `DoubleSetting.Parser.read_from`, settings/double_setting.py:37-42. -/
def readDoubleFrom : Reader FloatParser := do
  let min_value ← readDouble
  let max_value ← readDouble
  let key ← readString
  let is_filtered ← readBoolean
  return ⟨min_value, max_value, key, is_filtered⟩

/-- `DoubleSetting.Parser.write_to`, settings/double_setting.py:44-49. -/
def writeDoubleTo (p : FloatParser) : W :=
  writeDouble p.min_value ++ (writeDouble p.max_value ++ (writeString p.key ++ writeBoolean p.is_filtered))

/-- `FloatSetting.Parser.read_from`, settings/float_setting.py:37-42. -/
def readFloatFrom : Reader FloatParser := do
  let min_value ← readFloat
  let max_value ← readFloat
  let key ← readString
  let is_filtered ← readBoolean
  return ⟨min_value, max_value, key, is_filtered⟩

/-- `FloatSetting.Parser.write_to`, settings/float_setting.py:44-49. -/
def writeFloatTo (p : FloatParser) : W :=
  writeFloat p.min_value ++ (writeFloat p.max_value ++ (writeString p.key ++ writeBoolean p.is_filtered))

end FloatParser

/-- `float("inf")`, `float("-inf")`: the default bounds, settings/float_setting.py:17. -/
def posInf : F64 := ⟨2047 * 2 ^ 52, by decide⟩
def negInf : F64 := ⟨2 ^ 63 + 2047 * 2 ^ 52, by decide⟩

/-- `FloatSetting(...)`, settings/float_setting.py:17-20, and `DoubleSetting(...)`,
settings/double_setting.py:17-20 (which differ in the type only). -/
def FloatingSetting (py : Interp) (type : SettingType) (key : String) (default_value : F64)
    (min_value : F64 := negInf) (max_value : F64 := posInf) (properties : List Property := []) :
    Except Err (Setting FloatParser) := do
  let parser := FloatParser.new min_value max_value key [.tuple properties]
  let _ ← parser.boundsCheck default_value
  return ⟨type, key, fun _ => .ok (py.float.str default_value), parser, none, [.tuple properties]⟩

/-- `FloatSetting(...)`, settings/float_setting.py:17-20. -/
def FloatSetting (py : Interp) (key : String) (default_value : F64) (min_value : F64 := negInf)
    (max_value : F64 := posInf) (properties : List Property := []) : Except Err (Setting FloatParser) :=
  FloatingSetting py .FLOAT key default_value min_value max_value properties

/-- `DoubleSetting(...)`, settings/double_setting.py:17-20. -/
def DoubleSetting (py : Interp) (key : String) (default_value : F64) (min_value : F64 := negInf)
    (max_value : F64 := posInf) (properties : List Property := []) : Except Err (Setting FloatParser) :=
  FloatingSetting py .DOUBLE key default_value min_value max_value properties

/-! ## TimeValueSetting -/

/-- `TimeValueSetting.Parser` objects, settings/time_value_setting.py:27-36. -/
structure TimeParser where
  min_value : TimeValue
  max_value : TimeValue
  key : String
  is_filtered : Bool
  deriving DecidableEq, Repr

namespace TimeParser

/-- `TimeValueSetting.MINUS_ONE`, settings/time_value_setting.py:20. -/
def MINUS_ONE : TimeValue := ⟨-1, .MILLISECONDS⟩

/-- `Parser.__init__`, settings/time_value_setting.py:28-36. -/
def new (min_value max_value : TimeValue) (key : String) (properties : List PropArg) : Except Err TimeParser :=
  if min_value.duration < -1 then .error .value
  else if max_value.duration < -1 then .error .value
  else .ok ⟨min_value, max_value, key, filteredIn properties⟩

/-- `bounds_check`, settings/time_value_setting.py:41-46. -/
def boundsCheck (p : TimeParser) (value : TimeValue) : Except Err TimeValue :=
  if 0 ≤ p.min_value.duration ∧ p.min_value.toNanos > value.toNanos then .error .value
  else if 0 ≤ p.max_value.duration ∧ p.max_value.toNanos < value.toNanos then .error .value
  else .ok value

/-- `parse`, settings/time_value_setting.py:38-39. -/
def parse (py : Interp) (p : TimeParser) (s : String) : Except Err TimeValue := do
  p.boundsCheck (← TimeValue.parse py.u s)

instance : SettingParser TimeParser TimeValue := ⟨parse⟩

/-- `read_from`, settings/time_value_setting.py:48-54. -/
def readFrom : Reader TimeParser := do
  let has_max ← readBoolean
  let key ← readString
  let min_value ← readTimeValue
  let max_value ← if has_max then readTimeValue else pure MINUS_ONE
  let is_filtered ← readBoolean
  return ⟨min_value, max_value, key, is_filtered⟩

/-- `write_to`, settings/time_value_setting.py:56-64. -/
def writeTo (p : TimeParser) : W :=
  let has_max : Bool := 0 ≤ p.max_value.duration
  writeBoolean has_max ++ (writeString p.key ++ (writeTimeValue p.min_value ++
    ((if has_max then writeTimeValue p.max_value else W.nil) ++ writeBoolean p.is_filtered)))

end TimeParser

/-- `TimeValueSetting(...)`, settings/time_value_setting.py:22-25. -/
def TimeValueSetting (py : Interp) (key : String) (default_value : TimeValue)
    (min_value : TimeValue := TimeParser.MINUS_ONE) (max_value : TimeValue := TimeParser.MINUS_ONE)
    (properties : List Property := []) : Except Err (Setting TimeParser) := do
  let parser ← TimeParser.new min_value max_value key [.tuple properties]
  let _ ← parser.boundsCheck default_value
  return ⟨.TIME_VALUE, key, fun _ => default_value.str py.u, parser, none, [.tuple properties]⟩

/-! ## ByteSizeValueSetting -/

/-- `ByteSizeValueSetting.Parser` objects, settings/byte_size_value_setting.py:27-35. -/
structure SizeParser where
  min_value : ByteSizeValue
  max_value : ByteSizeValue
  key : String
  deriving DecidableEq, Repr

namespace SizeParser

/-- `ByteSizeValueSetting.MINUS_ONE`, settings/byte_size_value_setting.py:19. -/
def MINUS_ONE : ByteSizeValue := ⟨-1, .BYTES⟩

/-- `Parser.__init__`, settings/byte_size_value_setting.py:28-35. -/
def new (min_value max_value : ByteSizeValue) (key : String) : Except Err SizeParser :=
  if min_value.size < -1 then .error .value
  else if max_value.size < -1 then .error .value
  else .ok ⟨min_value, max_value, key⟩

/-- `bounds_check`, settings/byte_size_value_setting.py:40-45. -/
def boundsCheck (p : SizeParser) (value : ByteSizeValue) : Except Err ByteSizeValue :=
  if 0 ≤ p.min_value.size ∧ p.min_value.toBytes > value.toBytes then .error .value
  else if 0 ≤ p.max_value.size ∧ p.max_value.toBytes < value.toBytes then .error .value
  else .ok value

/-- `parse`, settings/byte_size_value_setting.py:37-38. -/
def parse (py : Interp) (p : SizeParser) (s : String) : Except Err ByteSizeValue := do
  p.boundsCheck (← ByteSizeValue.parse py.u s)

instance : SettingParser SizeParser ByteSizeValue := ⟨parse⟩

/-- `read_from`, settings/byte_size_value_setting.py:47-51. -/
def readFrom : Reader SizeParser := do
  let min_value ← readByteSizeValue
  let max_value ← readByteSizeValue
  let key ← readString
  return ⟨min_value, max_value, key⟩

/-- `write_to`, settings/byte_size_value_setting.py:53-57. -/
def writeTo (p : SizeParser) : W :=
  writeByteSizeValue p.min_value ++ (writeByteSizeValue p.max_value ++ writeString p.key)

end SizeParser

/-- `ByteSizeValueSetting(...)`, settings/byte_size_value_setting.py:22-25 (the type is TIME_VALUE
there, too). -/
def ByteSizeValueSetting (py : Interp) (key : String) (default_value : ByteSizeValue)
    (min_value : ByteSizeValue := SizeParser.MINUS_ONE) (max_value : ByteSizeValue := SizeParser.MINUS_ONE)
    (properties : List Property := []) : Except Err (Setting SizeParser) := do
  let parser ← SizeParser.new min_value max_value key
  let _ ← parser.boundsCheck default_value
  return ⟨.TIME_VALUE, key, fun _ => default_value.str py.u, parser, none, [.tuple properties]⟩

/-! ## BooleanSetting, VersionSetting, StringSetting -/

/-- `BooleanSetting.Parser`, settings/boolean_setting.py:19-22. -/
inductive BoolParser where
  | parser

/-- `parse`, settings/boolean_setting.py:20-22. -/
instance : SettingParser BoolParser Bool := ⟨fun py _ s => .ok (py.u.lower s == "true")⟩

/-- `BooleanSetting(...)`, settings/boolean_setting.py:15-17. -/
def BooleanSetting (key : String) (default_value : Bool) (properties : List Property := []) : Setting BoolParser :=
  ⟨.BOOLEAN, key, fun _ => .ok (if default_value then "True" else "False"), .parser, none, [.tuple properties]⟩

/-- `VersionSetting.Parser`, settings/version_setting.py:20-22. -/
inductive VersionParser where
  | parser

/-- `parse`, settings/version_setting.py:21-22. -/
instance : SettingParser VersionParser Version :=
  ⟨fun py _ s => (intOfStr py.u s).map fun n => Version.new (Int.xor n Version.MASK)⟩

/-- `VersionSetting(...)`, settings/version_setting.py:16-18. -/
def VersionSetting (py : Interp) (key : String) (default_value : Version) (properties : List Property := []) :
    Setting VersionParser :=
  ⟨.VERSION, key, fun _ => strInt py.u default_value.id, .parser, none, [.tuple properties]⟩

/-- The base class `Parser`, settings/parser.py:17-19. -/
inductive TextParser where
  | parser

/-- `parse`, settings/parser.py:18-19. -/
instance : SettingParser TextParser String := ⟨fun _ _ s => .ok s⟩

/-- `StringSetting(...)`, settings/string_setting.py:19-22. -/
def StringSetting (key : String) (default_value : String) (validator : Option (String → Except Err Unit) := none)
    (properties : List Property := []) : Except Err (Setting TextParser) := do
  match validator with
  | some validate => validate default_value
  | none => pure ()
  return ⟨.STRING, key, fun _ => .ok default_value, .parser, validator, [.tuple properties]⟩

/-! ## RegexValidator -/

/-- `RegexValidator` objects, settings/regex_validator.py:17-20. -/
structure RegexValidator where
  regex : String := ""
  is_matching : Bool := true
  deriving DecidableEq, Repr

namespace RegexValidator

/-- `validate`, settings/regex_validator.py:22-26.  `re.match(regex, value)` is a parameter: whether
it matches, or the exception it raises for an invalid expression. -/
def validate (reMatch : String → String → Except Err Bool) (v : RegexValidator) (value : String) : Except Err Unit := do
  if v.is_matching then
    let m ← reMatch v.regex value
    if !m then throw .value
    else
      let _ ← reMatch v.regex value
      return ()
  else
    let m ← reMatch v.regex value
    if m then throw .value else return ()

/-- `read_from`, settings/regex_validator.py:28-31. -/
def readFrom : Reader RegexValidator := do
  let regex ← readString
  let is_matching ← readBoolean
  return ⟨regex, is_matching⟩

/-- `write_to`, settings/regex_validator.py:33-36. -/
def writeTo (v : RegexValidator) : W := writeString v.regex ++ writeBoolean v.is_matching

end RegexValidator

/-! ## Settings objects and the dicts they refer to -/

/-- Which dict a `Settings` object refers to: `Settings()` uses the default argument, one dict for the
life of the process; `Settings(d)` uses `d`, here a numbered dict. -/
inductive SettingsRef where
  | shared
  | own (n : Nat)
  deriving DecidableEq, Repr

/-- The dicts of the process that `Settings` objects refer to. -/
structure SettingsHeap where
  shared : Dict String PyVal := []
  own : Nat → Dict String PyVal := fun _ => []

namespace SettingsHeap

/-- The dict of a `Settings` object. -/
def dict (h : SettingsHeap) : SettingsRef → Dict String PyVal
  | .shared => h.shared
  | .own n => h.own n

/-- Change the dict of a `Settings` object. -/
def put (h : SettingsHeap) (r : SettingsRef) (d : Dict String PyVal) : SettingsHeap :=
  match r with
  | .shared => { h with shared := d }
  | .own n => { h with own := fun m => if m = n then d else h.own m }

/-- `Settings()` and `Settings(d)`, settings/settings.py:18-23. -/
def new (arg : Option Nat) : SettingsRef :=
  match arg with
  | none => .shared
  | some n => .own n

/-- `read_from` on a `Settings` object, settings/settings.py:25-31: the heap afterwards and the rest
of the stream or the exception. -/
def readFrom (depth : Nat) (h : SettingsHeap) (r : SettingsRef) (bs : Bytes) : SettingsHeap × Except Err Bytes :=
  let p := Settings.readFrom depth (h.dict r) bs
  (h.put r p.1, p.2)

end SettingsHeap

end Verif
