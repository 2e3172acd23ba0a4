import Verif.Model.Setting
import Verif.Model.Rest
/-!
# The messages of the exceptions that reject a setting

Beside each check, the message of the ValueError it raises: `none` if it raises none, an error if composing the message raises one
itself (`str` of an integer beyond the digit limit).
-/

namespace Verif
open Py

/-- The message of settings/integer_setting.py:42 and settings/long_setting.py:41. -/
def IntParser.reason (u : Unicode) (p : IntParser) (value : Int) : Option (Except Err String) :=
  if ¬ (p.min_value ≤ value ∧ value ≤ p.max_value) then
    some (do
      let a ← strInt u p.min_value
      let b ← strInt u p.max_value
      return "Value for setting [" ++ p.key ++ "], must be between " ++ a ++ " and " ++ b)
  else none

/-- The message of settings/float_setting.py:34 and settings/double_setting.py:34. -/
def FloatParser.reason (py : Interp) (p : FloatParser) (value : F64) : Option (Except Err String) :=
  if ¬ (p.min_value.le value ∧ value.le p.max_value) then
    some (.ok ("Value for setting [" ++ p.key ++ "], must be between " ++ py.float.str p.min_value ++ " and " ++ py.float.str p.max_value))
  else none

/-- The messages of settings/time_value_setting.py:43 and 45. -/
def TimeParser.reason (u : Unicode) (p : TimeParser) (value : TimeValue) : Option (Except Err String) :=
  if 0 ≤ p.min_value.duration ∧ p.min_value.toNanos > value.toNanos then
    some ((p.min_value.str u).map fun t => "Value for setting [" ++ p.key ++ "], must be above " ++ t)
  else if 0 ≤ p.max_value.duration ∧ p.max_value.toNanos < value.toNanos then
    some ((p.max_value.str u).map fun t => "Value for setting [" ++ p.key ++ "], must be below " ++ t)
  else none

/-- The messages of settings/byte_size_value_setting.py:42 and 44. -/
def SizeParser.reason (u : Unicode) (p : SizeParser) (value : ByteSizeValue) : Option (Except Err String) :=
  if 0 ≤ p.min_value.size ∧ p.min_value.toBytes > value.toBytes then
    some ((p.min_value.str u).map fun t => "Value for setting [" ++ p.key ++ "], must be above " ++ t)
  else if 0 ≤ p.max_value.size ∧ p.max_value.toBytes < value.toBytes then
    some ((p.max_value.str u).map fun t => "Value for setting [" ++ p.key ++ "], must be below " ++ t)
  else none

/-- The messages of settings/regex_validator.py:24 and 26 (none when `re.match` itself raises). -/
def RegexValidator.reason (reMatch : String → String → Except Err Bool) (v : RegexValidator) (value : String) : Option String :=
  match reMatch v.regex value with
  | .error _ => none
  | .ok m =>
    if v.is_matching ∧ ¬ m then some ("Setting [" ++ value ++ "] does not match regex [" ++ v.regex ++ "]")
    else if m ∧ ¬ v.is_matching then some ("Setting [" ++ value ++ "] must match regex [" ++ v.regex ++ "]")
    else none

/-- The messages of transport/time_value.py:40 and 42 (none when `int` raises). -/
def TimeValue.parseReason (u : Unicode) (value : String) : Option String :=
  match matchValue u (u.lower value) with
  | none => some ("Invalid TimeValue: " ++ value)
  | some (duration, unit) =>
    match intOfStr u duration with
    | .error _ => none
    | .ok _ => if (lookup TIME_UNIT_MAPPING unit).isSome then none else some ("Invalid TimeUnit: " ++ unit)

/-- The messages of transport/byte_size_value.py:43 and 45 (none when `int` raises). -/
def ByteSizeValue.parseReason (u : Unicode) (value : String) : Option String :=
  match matchValue u (u.lower value) with
  | none => some ("Invalid ByteSizeValue: " ++ value)
  | some (size, unit) =>
    match intOfStr u size with
    | .error _ => none
    | .ok _ => if (lookup BYTE_SIZE_UNIT_MAPPING (withB unit)).isSome then none else some ("Invalid TimeUnit: " ++ withB unit)

/-- The message of rest/extension_rest_handlers.py:34, the loop of lines 29-38 (none when every route is registered). -/
def Registry.registerReason {H : Type} (h : H) : Registry H → List NamedRoute → Option String
  | _, [] => none
  | reg, r :: rs =>
    let key := wildcard r.key
    if reg.routes.contains key then some ("Can not register " ++ r.key ++ ", " ++ key ++ " is already registered.")
    else registerReason h ⟨reg.routes.set key h, reg.named_routes ++ [r.str]⟩ rs

end Verif
