import Verif.Props.Settings
import Verif.Props.Defaults
/-!
# C101: the properties of a setting
-/

namespace Verif
open Py Spec

variable (py : Interp)

/-- C101 is violated by every class and every property: a setting object never has a property it was given.  (Every class hands
its properties on as one argument, so that `setting.properties` holds one tuple.) -/
theorem C101_violated (key : String) (properties : List Property) (q : Property) :
    (∀ default, .prop q ∉ (BooleanSetting key default properties).properties) ∧
    (∀ default, .prop q ∉ (VersionSetting py key default properties).properties) ∧
    (∀ default validator st, StringSetting key default validator properties = .ok st → .prop q ∉ st.properties) ∧
    (∀ default min max st, IntegerSetting py key default min max properties = .ok st → .prop q ∉ st.properties) ∧
    (∀ default min max st, LongSetting py key default min max properties = .ok st → .prop q ∉ st.properties) ∧
    (∀ default min max st, FloatSetting py key default min max properties = .ok st → .prop q ∉ st.properties) ∧
    (∀ default min max st, DoubleSetting py key default min max properties = .ok st → .prop q ∉ st.properties) ∧
    (∀ default min max st, TimeValueSetting py key default min max properties = .ok st → .prop q ∉ st.properties) ∧
    (∀ default min max st, ByteSizeValueSetting py key default min max properties = .ok st → .prop q ∉ st.properties) := by
  have key' : .prop q ∉ [PropArg.tuple properties] := by simp
  refine ⟨fun _ => key', fun _ => key', ?_, ?_, ?_, ?_, ?_, ?_, ?_⟩
  · intro default validator st h; rw [(stringSetting_ok h).1]; exact key'
  · intro default min max st h; rw [((integerSetting_iff py ..).1 h).1]; exact key'
  · intro default min max st h; rw [((longSetting_iff py ..).1 h).1]; exact key'
  · intro default min max st h; rw [(floatingSetting_ok py h).1]; exact key'
  · intro default min max st h; rw [(floatingSetting_ok py h).1]; exact key'
  · intro default min max st h; rw [((timeSetting_iff py ..).1 h).1]; exact key'
  · intro default min max st h; rw [((sizeSetting_iff py ..).1 h).1]; exact key'

/-- C101, what is left: the properties given, in the order given, are the one tuple in `setting.properties`. -/
theorem C101_tuple_partial (key : String) (properties : List Property) :
    (∀ default, (BooleanSetting key default properties).properties = [.tuple properties]) ∧
    (∀ default, (VersionSetting py key default properties).properties = [.tuple properties]) ∧
    (∀ default validator st, StringSetting key default validator properties = .ok st → st.properties = [.tuple properties]) ∧
    (∀ default min max st, IntegerSetting py key default min max properties = .ok st → st.properties = [.tuple properties]) ∧
    (∀ default min max st, LongSetting py key default min max properties = .ok st → st.properties = [.tuple properties]) ∧
    (∀ default min max st, FloatSetting py key default min max properties = .ok st → st.properties = [.tuple properties]) ∧
    (∀ default min max st, DoubleSetting py key default min max properties = .ok st → st.properties = [.tuple properties]) ∧
    (∀ default min max st, TimeValueSetting py key default min max properties = .ok st → st.properties = [.tuple properties]) ∧
    (∀ default min max st, ByteSizeValueSetting py key default min max properties = .ok st → st.properties = [.tuple properties]) := by
  refine ⟨fun _ => rfl, fun _ => rfl, ?_, ?_, ?_, ?_, ?_, ?_, ?_⟩
  · intro default validator st h; rw [(stringSetting_ok h).1]
  · intro default min max st h; rw [((integerSetting_iff py ..).1 h).1]; rfl
  · intro default min max st h; rw [((longSetting_iff py ..).1 h).1]; rfl
  · intro default min max st h; rw [(floatingSetting_ok py h).1]
  · intro default min max st h; rw [(floatingSetting_ok py h).1]
  · intro default min max st h; rw [((timeSetting_iff py ..).1 h).1]; rfl
  · intro default min max st h; rw [((sizeSetting_iff py ..).1 h).1]; rfl

/-- Settings of C101 with properties exist. -/
example : (∃ st, IntegerSetting py "k" 5 0 9 [.FILTERED, .DYNAMIC] = .ok st) ∧
    (∃ st, StringSetting "k" "v" none [.NODE_SCOPE] = .ok st) := ⟨⟨_, rfl⟩, ⟨_, rfl⟩⟩

end Verif
