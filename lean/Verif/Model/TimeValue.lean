import Verif.Model.Values
import Verif.Py.Text
/-!
# transport/time_value.py and transport/byte_size_value.py: text form and conversions
-/

namespace Verif
open Py

/-- `TIME_UNIT_MAPPING`, transport/time_value.py:17-25, in its order. -/
def TIME_UNIT_MAPPING : List (String × TimeUnit) :=
  [("nanos", .NANOSECONDS), ("micros", .MICROSECONDS), ("ms", .MILLISECONDS), ("s", .SECONDS),
   ("m", .MINUTES), ("h", .HOURS), ("d", .DAYS)]

/-- `BYTE_SIZE_UNIT_MAPPING`, transport/byte_size_value.py:19-26. -/
def BYTE_SIZE_UNIT_MAPPING : List (String × ByteSizeUnit) :=
  [("b", .BYTES), ("kb", .KB), ("mb", .MB), ("gb", .GB), ("tb", .TB), ("pb", .PB)]

/-- `mapping.get(key)` for a literal dict. -/
def lookup {α : Type} (m : List (String × α)) (k : String) : Option α := (m.find? fun e => e.1 == k).map (·.2)

/-- `{v: k for k, v in mapping.items()}[value]`; the mappings have distinct values. -/
def reverseLookup {α : Type} [DecidableEq α] (m : List (String × α)) (v : α) : Option String :=
  (m.find? fun e => e.2 == v).map (·.1)

namespace TimeValue

/-- `parse`, transport/time_value.py:31-42. -/
def parse (u : Unicode) (value : String) : Except Err TimeValue :=
  match matchValue u (u.lower value) with
  | none => .error .value
  | some (duration, unit) =>
    match intOfStr u duration with
    | .error e => .error e
    | .ok n =>
      match lookup TIME_UNIT_MAPPING unit with
      | some t => .ok ⟨n, t⟩
      | none => .error .value

/-- `to_nanos`, transport/time_value.py:44-57. -/
def toNanos (v : TimeValue) : Int :=
  match v.time_unit with
  | .NANOSECONDS => v.duration
  | .MICROSECONDS => v.duration * 10 ^ 3
  | .MILLISECONDS => v.duration * 10 ^ 6
  | .SECONDS => v.duration * 10 ^ 9
  | .MINUTES => v.duration * 10 ^ 9 * 60
  | .HOURS => v.duration * 10 ^ 9 * 60 ^ 2
  | .DAYS => v.duration * 10 ^ 9 * 60 ^ 2 * 24

/-- `__str__`, transport/time_value.py:59-61. -/
def str (u : Unicode) (v : TimeValue) : Except Err String :=
  match reverseLookup TIME_UNIT_MAPPING v.time_unit with
  | none => .error .key
  | some unit => (strInt u v.duration).map (· ++ unit)

end TimeValue

namespace ByteSizeValue

/-- `unit if unit.endswith("b") else unit + "b"`, transport/byte_size_value.py:38-39. -/
def withB (unit : String) : String := if unit.toList.getLast? = some 'b' then unit else unit ++ "b"

/-- `parse`, transport/byte_size_value.py:32-45. -/
def parse (u : Unicode) (value : String) : Except Err ByteSizeValue :=
  match matchValue u (u.lower value) with
  | none => .error .value
  | some (size, unit) =>
    match intOfStr u size with
    | .error e => .error e
    | .ok n =>
      match lookup BYTE_SIZE_UNIT_MAPPING (withB unit) with
      | some t => .ok ⟨n, t⟩
      | none => .error .value

/-- `to_bytes`, transport/byte_size_value.py:47-58. -/
def toBytes (v : ByteSizeValue) : Int :=
  match v.unit with
  | .KB => v.size * 2 ^ 10
  | .MB => v.size * 2 ^ 20
  | .GB => v.size * 2 ^ 30
  | .TB => v.size * 2 ^ 40
  | .PB => v.size * 2 ^ 50
  | .BYTES => v.size

/-- `__str__`, transport/byte_size_value.py:70-72. -/
def str (u : Unicode) (v : ByteSizeValue) : Except Err String :=
  match reverseLookup BYTE_SIZE_UNIT_MAPPING v.unit with
  | none => .error .key
  | some unit => (strInt u v.size).map (· ++ unit)

end ByteSizeValue

end Verif
