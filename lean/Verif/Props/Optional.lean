import Verif.Spec.Wire
import Verif.Props.Primitives
import Verif.Props.Collections
/-!
# C70: optional values; C13 for `write_array_list`
-/

namespace Verif
open Py StreamInput StreamOutput

theorem optionalOf {α : Type} (inner : Reader α) :
    OptionalOf inner (do if ← readBoolean then return some (← inner) else return none) := by
  have hb := C07_boolean.2.1
  refine ⟨?_, fun rest => ?_, fun rest a rest' h => ?_, fun rest e h => ?_, fun b rest h0 h1 => ?_⟩
  · have e : readBoolean [] = .ok (false, []) := by decide +kernel
    rw [Reader.bind_ok e]; rfl
  · have e := hb 0 rest
    rw [if_pos rfl] at e
    rw [Reader.bind_ok e]; rfl
  · have e := hb 1 rest
    rw [if_neg (by decide), if_pos rfl] at e
    rw [Reader.bind_ok e, if_pos rfl, Reader.bind_ok h]; rfl
  · have e := hb 1 rest
    rw [if_neg (by decide), if_pos rfl] at e
    rw [Reader.bind_ok e, if_pos rfl]
    show (inner >>= _) rest = _
    simp [Bind.bind, Reader.bind, h]
  · have e := hb b rest
    rw [if_neg h0, if_neg h1] at e
    simp [Bind.bind, Reader.bind, e]

/-- C70: each `read_optional_*` reads a flag byte and, only when the flag is 1, the value with the
corresponding plain reader; flag 0 consumes exactly that byte; any other flag raises. -/
theorem C70_readers :
    OptionalOf readInt readOptionalInt ∧ OptionalOf readLong readOptionalLong ∧
    OptionalOf readVLong readOptionalVLong ∧ OptionalOf readString readOptionalString ∧
    OptionalOf readStringArray readOptionalStringArray :=
  ⟨optionalOf _, optionalOf _, optionalOf _, optionalOf _, optionalOf _⟩

theorem OptionalOf.roundTrips {α : Type} {inner : Reader α} {r : Reader (Option α)} (h : OptionalOf inner r)
    {w : α → W} (o : Option α) (hw : ∀ a, o = some a → RoundTrips (w a) inner a) :
    RoundTrips (optionalWire w o) r o := by
  cases o with
  | none => exact ⟨rfl, fun rest => h.2.1 rest⟩
  | some a =>
    have ha := hw a rfl
    refine ⟨by simp [optionalWire, ha.1], fun rest => ?_⟩
    have : (optionalWire w (some a)).out = 1 :: (w a).out := by
      rw [optionalWire, W.out_append rfl]; rfl
    rw [this]
    exact h.2.2.1 _ _ _ (ha.2 rest)

/-- C70: optional values that fit the wire format are restored, present or absent. -/
theorem C70_roundtrip :
    (∀ o : Option Int, (∀ i, o = some i → -(2 ^ 31) ≤ i ∧ i < 2 ^ 31) →
      RoundTrips (optionalWire writeInt o) readOptionalInt o) ∧
    (∀ o : Option Int, (∀ i, o = some i → -(2 ^ 63) ≤ i ∧ i < 2 ^ 63) →
      RoundTrips (optionalWire writeLong o) readOptionalLong o) ∧
    (∀ o : Option Int, (∀ i, o = some i → 0 ≤ i ∧ i < 2 ^ 64) →
      RoundTrips (optionalWire writeVLong o) readOptionalVLong o) ∧
    (∀ o : Option String, (∀ s, o = some s → StrOK s) →
      RoundTrips (optionalWire writeString o) readOptionalString o) ∧
    (∀ o : Option (List String), (∀ l, o = some l → StrsOK l) →
      RoundTrips (optionalWire writeStringArray o) readOptionalStringArray o) := by
  refine ⟨fun o h => ?_, fun o h => ?_, fun o h => ?_, fun o h => ?_, fun o h => ?_⟩
  · exact C70_readers.1.roundTrips o fun a ha => rt_int (h a ha).1 (h a ha).2
  · exact C70_readers.2.1.roundTrips o fun a ha => rt_long (h a ha).1 (h a ha).2
  · refine C70_readers.2.2.1.roundTrips o fun a ha => ?_
    obtain ⟨h0, h1⟩ := h a ha
    obtain ⟨n, rfl⟩ := Int.eq_ofNat_of_zero_le h0
    exact rt_vlong (by exact_mod_cast h1)
  · exact C70_readers.2.2.2.1.roundTrips o fun a ha => rt_string (h a ha)
  · exact C70_readers.2.2.2.2.roundTrips o fun a ha => rt_stringArray (h a ha)

/-- C70, truncation: the flag byte is not required: at the end of the input every optional value is
absent (`read_byte` gives 0 there). -/
theorem C70_end_of_input :
    readOptionalInt [] = .ok (none, []) ∧ readOptionalLong [] = .ok (none, []) ∧
    readOptionalVLong [] = .ok (none, []) ∧ readOptionalString [] = .ok (none, []) ∧
    readOptionalStringArray [] = .ok (none, []) :=
  ⟨C70_readers.1.1, C70_readers.2.1.1, C70_readers.2.2.1.1, C70_readers.2.2.2.1.1, C70_readers.2.2.2.2.1⟩

example : (optionalWire writeString (some "é")).out = [1, 2, 0xC3, 0xA9] ∧
    readOptionalString [1, 2, 0xC3, 0xA9, 9] = .ok (some "é", [9]) ∧
    (∀ s, some "é" = some s → StrOK s) := by
  refine ⟨by decide +kernel, by rfl, ?_⟩
  rintro s ⟨⟩; decide +kernel

/-- C13 for lists written with the public `write_array_list`: what it
writes after the list type byte 7 is what `write_generic_value` writes for the list, so it is read
back by the generic reader. -/
theorem C13_array_list (l : List PyVal) (limit : Nat) (h : GenericOK (.list l))
    (hd : nesting (.list l) ≤ limit) :
    RoundTrips (W.emit [7] ++ writeArrayList l) (readGeneric limit) (.list l) := by
  have e : W.emit [7] ++ writeArrayList l = writeGeneric (.list l) := by
    rw [writeGeneric, writeArrayList]; rfl
  rw [e]; exact C13_roundtrip _ _ h hd

example := C13_array_list [.none, .list [.int (-5)]] 3
  (by simp only [GenericOK, GenericsOK]; decide +kernel) (by decide)

end Verif
