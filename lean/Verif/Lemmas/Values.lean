import Verif.Lemmas.Stream
import Verif.Spec.Generic
import Verif.Spec.Varint
/-!
# z_long, time and byte-size values, generic values, versions
-/

namespace Verif
open Py StreamInput StreamOutput

/-- The non-negative number `write_z_long` writes. -/
def zz (i : Int) : Nat := 2 * i.natAbs + (if i < 0 then 1 else 0)

theorem writeZLong_eq (i : Int) :
    writeZLong i = if zz i < 2 ^ 64 then W.emit (varint (zz i)) else W.fail .value := by
  unfold writeZLong writeVLong
  have h : (2 * (i.natAbs : Int) + (if i < 0 then 1 else 0)) = ((zz i : Nat) : Int) := by
    unfold zz; split <;> push_cast <;> rfl
  simp only [h]
  have h2 : ((zz i : Nat) : Int) >>> 64 = ((zz i >>> 64 : Nat) : Int) := rfl
  rw [h2, Nat.shiftRight_eq_div_pow, writeVInt_nat]
  by_cases hz : zz i < 2 ^ 64
  · rw [if_pos hz, if_neg (by omega)]
  · rw [if_neg hz, if_pos (by omega)]

theorem zz_lt {i : Int} : zz i < 2 ^ 64 ↔ -(2 ^ 63) < i ∧ i < 2 ^ 63 := by
  unfold zz; split <;> omega

theorem int_land_one (n : Nat) : Int.land (n : Int) 1 = ((n % 2 : Nat) : Int) := by
  show ((n &&& 1 : Nat) : Int) = _
  rw [show (1 : Nat) = 2 ^ 1 - 1 from rfl, Nat.and_two_pow_sub_one_eq_mod]

theorem rt_zlong {i : Int} (h1 : -(2 ^ 63) < i) (h2 : i < 2 ^ 63) :
    RoundTrips (writeZLong i) readZLong i := by
  have hz := zz_lt.2 ⟨h1, h2⟩
  rw [writeZLong_eq, if_pos hz]
  refine ⟨rfl, fun rest => ?_⟩
  unfold readZLong
  rw [W.emit_out, Reader.bind_ok (by rw [readVLong_varint, if_pos hz]), Reader.pure_def, int_land_one]
  have : ((zz i : Nat) : Int) >>> 1 = ((zz i / 2 : Nat) : Int) := by
    show ((zz i >>> 1 : Nat) : Int) = _
    rw [Nat.shiftRight_eq_div_pow]
  rw [this]
  congr 2
  unfold zz
  by_cases hi : i < 0
  · simp only [hi, if_true]
    rw [if_pos (by omega)]; omega
  · simp only [hi, if_false]
    rw [if_neg (by omega)]; omega

theorem rt_timeUnitByte (u : TimeUnit) : RoundTrips (writeByte u.value) (readEnum TimeUnit) u := by
  have h := rt_timeUnit u
  have e : writeEnum u = writeByte u.value := by
    unfold writeEnum writeVInt
    rw [if_pos (by cases u <;> decide)]; rfl
  rwa [e] at h

theorem rt_timeValue {v : TimeValue} (h1 : -(2 ^ 63) < v.duration) (h2 : v.duration < 2 ^ 63) :
    RoundTrips (writeTimeValue v) readTimeValue v :=
  (rt_zlong h1 h2).seq ((rt_timeUnitByte v.time_unit).map (fun u => (⟨v.duration, u⟩ : TimeValue)))

theorem rt_byteSizeValue {v : ByteSizeValue} (h1 : -(2 ^ 63) < v.size) (h2 : v.size < 2 ^ 63) :
    RoundTrips (writeByteSizeValue v) readByteSizeValue v :=
  (rt_zlong h1 h2).seq ((rt_byteSizeUnit v.unit).map (fun u => (⟨v.size, u⟩ : ByteSizeValue)))

/-! ### Generic values -/

theorem readGeneric_succ (d : Nat) : readGeneric (d + 1) = (do
    let type ← readByte
    if type = -1 then return .none
    else if type = 0 then return .str (← readString)
    else if type = 1 then return .int (← readInt)
    else if type = 2 then return .int (← readLong)
    else if type = 5 then return .bool (← readBoolean)
    else if type = 6 then return .bytes (← readByteArray)
    else if type = 7 then do
      let n ← readVInt
      return .list (← (readGeneric d).times n.toNat)
    else if type = 11 then return .int (← readByte)
    else if type = 16 then return .int (← readShort)
    else Reader.throw .exception) := by rw [readGeneric]

theorem rt_tag {α} {t : Int} (h1 : -(2 ^ 7) ≤ t) (h2 : t < 2 ^ 7) {w : W} {f : Int → Reader α} {a : α}
    (h : RoundTrips w (f t) a) : RoundTrips (writeByte t ++ w) (readByte >>= f) a :=
  (rt_byte h1 h2).seq h

mutual
theorem rt_generic : ∀ (v : PyVal) (d : Nat), GenericOK v → nesting v ≤ d →
    RoundTrips (writeGeneric v) (readGeneric d) v
  | _, 0, _, hd => by
    rename_i v _
    cases v <;> simp [nesting] at hd
  | .none, d + 1, _, _ => by
    rw [readGeneric_succ, writeGeneric]
    have := rt_tag (t := -1) (by decide) (by decide) (w := W.nil) (a := PyVal.none)
      (f := fun _ => pure PyVal.none) (RoundTrips.pure _)
    rw [W.append_nil] at this
    refine ⟨this.1, fun rest => ?_⟩
    rw [Reader.bind_ok ((rt_byte (i := -1) (by decide) (by decide)).2 rest)]; rfl
  | .bool b, d + 1, _, _ => by
    rw [readGeneric_succ, writeGeneric]
    exact rt_tag (by decide) (by decide) ((rt_boolean b).map PyVal.bool)
  | .str s, d + 1, h, _ => by
    rw [readGeneric_succ, writeGeneric]
    rw [GenericOK] at h
    exact rt_tag (by decide) (by decide) ((rt_string h).map PyVal.str)
  | .int i, d + 1, h, _ => by
    rw [readGeneric_succ, writeGeneric]
    rw [GenericOK] at h
    exact rt_tag (by decide) (by decide) ((rt_long h.1 h.2).map PyVal.int)
  | .bytes b, d + 1, h, _ => by
    rw [readGeneric_succ, writeGeneric]
    rw [GenericOK] at h
    exact rt_tag (by decide) (by decide) ((rt_byteArray h).map PyVal.bytes)
  | .list l, d + 1, h, hd => by
    rw [readGeneric_succ, writeGeneric]
    rw [GenericOK] at h
    rw [nesting] at hd
    refine rt_tag (by decide) (by decide) ?_
    refine (rt_vint h.1).seq ?_
    rw [Int.toNat_natCast]
    exact (rt_generics l d h.2 (by omega)).map PyVal.list
  | .other _ _, d + 1, h, _ => by rw [GenericOK] at h; exact h.elim
theorem rt_generics : ∀ (l : List PyVal) (d : Nat), GenericsOK l → nestings l ≤ d →
    RoundTrips (writeGenericList l) ((readGeneric d).times l.length) l
  | [], d, _, _ => by rw [writeGenericList]; exact RoundTrips.pure _
  | v :: vs, d, h, hd => by
    rw [writeGenericList]
    rw [GenericsOK] at h
    rw [nestings] at hd
    exact (rt_generic v d h.1 (by omega)).seq ((rt_generics vs d h.2 (by omega)).map (v :: ·))
end

/-! ### Versions -/

theorem int_xor_xor (a b : Int) : Int.xor (Int.xor a b) b = a := by
  cases a <;> cases b <;> simp [Int.xor]

theorem version_new_xor (i : Int) : Version.new (Int.xor i Version.MASK) = ⟨i⟩ := by
  unfold Version.new; rw [int_xor_xor]

theorem rt_version {v : Version} (h1 : 0 ≤ v.id) (h2 : v.id < 2 ^ 35) :
    RoundTrips (writeVersion v) readVersion v := by
  unfold writeVersion readVersion
  obtain ⟨i⟩ := v
  simp only at h1 h2
  lift i to Nat using h1
  have := (rt_vint (n := i) (by omega)).map (fun i => Version.new (Int.xor i Version.MASK))
  rw [version_new_xor] at this
  exact this

end Verif
