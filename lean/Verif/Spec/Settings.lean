import Verif.Model.Setting
import Verif.Spec.Units
/-!
# Specification: Bounds and validators of settings
-/

namespace Verif
open Py

variable {P α : Type} [SettingParser P α]

/-- What a validator says about a text: nothing when there is none. -/
def Setting.validate (st : Setting P) (s : String) : Except Err Unit :=
  match st.validator with
  | some v => v s
  | none => .ok ()

/-- `v` lies between the bounds, in bytes; a bound of -1 (of any unit) is no bound. -/
def SizeWithin (min max v : ByteSizeValue) : Prop :=
  (min.size = -1 ∨ min.size * bytesIn min.unit ≤ v.size * bytesIn v.unit) ∧
  (max.size = -1 ∨ v.size * bytesIn v.unit ≤ max.size * bytesIn max.unit)

/-- `v` lies between the bounds, in nanoseconds; a bound of -1 (of any unit) is no bound. -/
def TimeWithin (min max v : TimeValue) : Prop :=
  (min.duration = -1 ∨ min.duration * nanosIn min.time_unit ≤ v.duration * nanosIn v.time_unit) ∧
  (max.duration = -1 ∨ v.duration * nanosIn v.time_unit ≤ max.duration * nanosIn max.time_unit)

end Verif
