import Verif.Model.Reasons
/-!
# Specification: what the message of a rejected setting demands
-/

namespace Verif
open Py

/-- What a message demands of a value. -/
inductive Demand (α : Type) where
  | between (lo hi : α)
  | above (lo : α)
  | below (hi : α)

/-- The demand in words, for the setting `key`. -/
def Demand.text {α : Type} (show_ : α → String) (key : String) : Demand α → String
  | .between lo hi => "Value for setting [" ++ key ++ "], must be between " ++ show_ lo ++ " and " ++ show_ hi
  | .above lo => "Value for setting [" ++ key ++ "], must be above " ++ show_ lo
  | .below hi => "Value for setting [" ++ key ++ "], must be below " ++ show_ hi

/-- The value meets the demand, bounds included. -/
def Demand.MetBy {α : Type} (le : α → α → Prop) (v : α) : Demand α → Prop
  | .between lo hi => le lo v ∧ le v hi
  | .above lo => le lo v
  | .below hi => le v hi

/-- The usual notation of a time value. -/
def timeText (t : TimeValue) : String :=
  toString t.duration ++ match t.time_unit with
    | .NANOSECONDS => "nanos" | .MICROSECONDS => "micros" | .MILLISECONDS => "ms" | .SECONDS => "s" | .MINUTES => "m"
    | .HOURS => "h" | .DAYS => "d"

/-- The usual notation of a size. -/
def sizeText (s : ByteSizeValue) : String :=
  toString s.size ++ match s.unit with
    | .BYTES => "b" | .KB => "kb" | .MB => "mb" | .GB => "gb" | .TB => "tb" | .PB => "pb"

/-- The message `text` of the check `accepts` for the setting `key`, which rejected `v`, is a good one: it is a demand in words that
`v` does not meet and every accepted value does. -/
def GoodReason {α : Type} (le : α → α → Prop) (show_ : α → String) (key : String) (accepts : α → Prop) (v : α) (text : String) : Prop :=
  ∃ d : Demand α, text = d.text show_ key ∧ ¬ d.MetBy le v ∧ ∀ w, accepts w → d.MetBy le w

end Verif
