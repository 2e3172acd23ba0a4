import Verif.Spec.Single
import Verif.Lemmas.Float
import Verif.Lemmas.Values
import Verif.Model.Setting
/-!
# C59: setting parsers round-trip
-/

namespace Verif
open Py StreamInput StreamOutput

/-! ## Integer and long parsers -/

/-- C59: an integer parser, as its constructor makes it, is restored from what it wrote. -/
theorem C59_integer {p : IntParser} {min max : Int} {key : String} {props : List PropArg}
    (hp : IntParser.new 32 min max key props = .ok p) (hk : StrOK key) :
    RoundTrips p.writeTo IntParser.readFrom p := by
  unfold IntParser.new at hp
  split at hp
  · simp at hp
  · next h1 =>
    split at hp
    · simp at hp
    · next h2 =>
      simp only [Except.ok.injEq] at hp
      subst hp
      simp only [not_not] at h1 h2
      unfold IntParser.writeTo IntParser.readFrom
      exact (rt_int (i := min) (by omega) (by omega)).seq <| (rt_int (i := max) (by omega) (by omega)).seq <| (rt_string hk).seq <|
        (rt_boolean _).map fun b => (⟨min, max, key, b⟩ : IntParser)

example := C59_integer (min := -7) (max := 77) (key := "k") (props := [.prop .FILTERED]) rfl (by decide +kernel)

/-- C59: the same for long parsers. -/
theorem C59_long {p : IntParser} {min max : Int} {key : String} {props : List PropArg}
    (hp : IntParser.new 64 min max key props = .ok p) (hk : StrOK key) :
    RoundTrips p.writeLongTo IntParser.readLongFrom p := by
  unfold IntParser.new at hp
  split at hp
  · simp at hp
  · next h1 =>
    split at hp
    · simp at hp
    · next h2 =>
      simp only [Except.ok.injEq] at hp
      subst hp
      simp only [not_not] at h1 h2
      unfold IntParser.writeLongTo IntParser.readLongFrom
      exact (rt_long (i := min) (by omega) (by omega)).seq <| (rt_long (i := max) (by omega) (by omega)).seq <| (rt_string hk).seq <|
        (rt_boolean _).map fun b => (⟨min, max, key, b⟩ : IntParser)

example := C59_long (p := ⟨-5, 2 ^ 40, "k", true⟩) (min := -5) (max := 2 ^ 40) (props := [.prop .FILTERED]) rfl (by decide)

example : ∃ p, IntParser.new 64 (-(2 ^ 63)) 77 "k" [.prop .FILTERED] = .ok p ∧ p.is_filtered = true :=
  ⟨_, rfl, rfl⟩

/-! ## Byte-size parsers -/

/-- C59: a byte-size parser whose bounds fit a z_long is restored from what it wrote. -/
theorem C59_size {p : SizeParser} {min max : ByteSizeValue} {key : String}
    (hp : SizeParser.new min max key = .ok p) (hk : StrOK key) (h1 : min.size < 2 ^ 63) (h2 : max.size < 2 ^ 63) :
    RoundTrips p.writeTo SizeParser.readFrom p := by
  unfold SizeParser.new at hp
  split at hp
  · simp at hp
  · split at hp
    · simp at hp
    · simp only [Except.ok.injEq] at hp
      subst hp
      unfold SizeParser.writeTo SizeParser.readFrom
      exact (rt_byteSizeValue (by omega) h1).seq <| (rt_byteSizeValue (by omega) h2).seq <|
        (rt_string hk).map fun k => (⟨min, max, k⟩ : SizeParser)

example := C59_size (p := ⟨⟨1, .KB⟩, ⟨-1, .GB⟩, "k"⟩) (min := ⟨1, .KB⟩) (max := ⟨-1, .GB⟩) rfl (by decide) (by decide) (by decide)

example : ∃ p, SizeParser.new ⟨1, .KB⟩ ⟨5, .PB⟩ "k" = .ok p := ⟨_, rfl⟩

/-! ## Time parsers -/

/-- C59: a time parser whose bounds fit a z_long is restored to a parser with the same minimum, key and
filtered flag, the same maximum unless it had none, and accepting and rejecting exactly the same texts
with the same results. -/
theorem C59_time {p : TimeParser} {min max : TimeValue} {key : String} {props : List PropArg}
    (hp : TimeParser.new min max key props = .ok p) (hk : StrOK key)
    (h1 : min.duration < 2 ^ 63) (h2 : max.duration < 2 ^ 63) :
    ∃ p', RoundTrips p.writeTo TimeParser.readFrom p' ∧
      p'.min_value = p.min_value ∧ p'.key = p.key ∧ p'.is_filtered = p.is_filtered ∧
      (p'.max_value = p.max_value ∨ (p.max_value.duration = -1 ∧ p'.max_value.duration = -1)) ∧
      ∀ py s, p'.parse py s = p.parse py s := by
  unfold TimeParser.new at hp
  split at hp
  · simp at hp
  · next hmin =>
    split at hp
    · simp at hp
    · next hmax =>
      simp only [Except.ok.injEq] at hp
      subst hp
      unfold TimeParser.writeTo TimeParser.readFrom
      by_cases h0 : 0 ≤ max.duration
      · refine ⟨⟨min, max, key, filteredIn props⟩, ?_, rfl, rfl, rfl, .inl rfl, fun _ _ => rfl⟩
        simp only [h0, decide_true, if_true]
        exact (rt_boolean _).seq <| (rt_string hk).seq <| (rt_timeValue (by omega) h1).seq <|
          (rt_timeValue (by omega) h2).seq <|
          (rt_boolean _).map fun b => (⟨min, max, key, b⟩ : TimeParser)
      · refine ⟨⟨min, TimeParser.MINUS_ONE, key, filteredIn props⟩, ?_, rfl, rfl, rfl, .inr ⟨by simp only; omega, rfl⟩, ?_⟩
        · simp only [h0, decide_false, Bool.false_eq_true, if_false]
          exact (rt_boolean _).seq <| (rt_string hk).seq <| (rt_timeValue (by omega) h1).seq <|
            (RoundTrips.pure _).seq <|
            (rt_boolean _).map fun b => (⟨min, TimeParser.MINUS_ONE, key, b⟩ : TimeParser)
        · intro py s
          unfold TimeParser.parse
          congr 1
          funext v
          unfold TimeParser.boundsCheck
          simp [h0, TimeParser.MINUS_ONE]

example := C59_time (p := ⟨⟨1, .HOURS⟩, ⟨-1, .DAYS⟩, "k", false⟩) (min := ⟨1, .HOURS⟩) (max := ⟨-1, .DAYS⟩) (props := []) rfl (by decide)
  (by decide) (by decide)

/-- A time parser without a maximum, in another unit than the restored one. -/
example : ∃ p, TimeParser.new ⟨3, .DAYS⟩ ⟨-1, .HOURS⟩ "k" [.prop .FILTERED] = .ok p ∧ p.is_filtered = true :=
  ⟨_, rfl, rfl⟩

/-! ## Double parsers -/

theorem rt_double (x : F64) : RoundTrips (writeDouble x) readDouble x := by
  refine ⟨rfl, fun rest => ?_⟩
  unfold writeDouble readDouble
  have h : natOfBE (beDigits 8 x.bits) = x.bits := by
    rw [natOfBE_beDigits, Nat.mod_eq_of_lt]; exact x.lt
  have hr : readRaw 8 ((W.emit (beDigits 8 x.bits)).out ++ rest) = .ok (beDigits 8 x.bits, rest) := by
    unfold readRaw
    have e := readBytes_append (beDigits 8 x.bits) rest
    rw [beDigits_length] at e
    rw [Reader.bind_ok (show readBytes (8 : Nat) ((W.emit (beDigits 8 x.bits)).out ++ rest) = _ from e)]
    rw [if_pos (beDigits_length _ _)]
    rfl
  rw [Reader.bind_ok hr]
  simp only [h]
  rw [dif_pos x.lt]
  rfl

/-- C59: a double parser (any bounds, NaN and infinities included) is restored from what it wrote. -/
theorem C59_double (p : FloatParser) (hk : StrOK p.key) : RoundTrips p.writeDoubleTo FloatParser.readDoubleFrom p := by
  unfold FloatParser.writeDoubleTo FloatParser.readDoubleFrom
  exact (rt_double _).seq <| (rt_double _).seq <| (rt_string hk).seq <|
    (rt_boolean _).map fun b => (⟨p.min_value, p.max_value, p.key, b⟩ : FloatParser)

example := C59_double ⟨⟨0x7FF8000000000000, by decide⟩, posInf, "é", true⟩ (by decide +kernel)

/-! ## Float parsers -/

theorem isSingle_iff {x : F64} :
    IsSingle x ↔ ∃ (b : Nat) (h : b < 2 ^ 32), b % 2 ^ 31 ≤ 255 * 2 ^ 23 ∧ x = F64.ofSingle b h := by
  constructor
  · rintro ⟨b, h, hn, hx⟩
    refine ⟨b, h, hn, ?_⟩
    cases x
    cases hx
    rfl
  · rintro ⟨b, h, hn, rfl⟩
    exact ⟨b, h, hn, rfl⟩

theorem readFloat_of_bits {b : Nat} (h : b < 2 ^ 32) (rest : Bytes) :
    readFloat (beDigits 4 b ++ rest) = .ok (F64.ofSingle b h, rest) := by
  unfold readFloat
  have hn : natOfBE (beDigits 4 b) = b := by
    rw [natOfBE_beDigits, Nat.mod_eq_of_lt]; exact h
  have hr : readRaw 4 (beDigits 4 b ++ rest) = .ok (beDigits 4 b, rest) := by
    unfold readRaw
    have e := readBytes_append (beDigits 4 b) rest
    rw [beDigits_length] at e
    rw [Reader.bind_ok (show readBytes (4 : Nat) (beDigits 4 b ++ rest) = _ from e)]
    rw [if_pos (beDigits_length _ _)]
    rfl
  rw [Reader.bind_ok hr]
  simp only [hn]
  rw [dif_pos (F64.ofSingleBits_lt h)]
  rfl

theorem rt_float {x : F64} (h : IsSingle x) : RoundTrips (writeFloat x) readFloat x := by
  obtain ⟨b, hb, hn, rfl⟩ := isSingle_iff.1 h
  have e : writeFloat (F64.ofSingle b hb) = W.emit (beDigits 4 b) := by
    unfold writeFloat
    rw [F64.toSingle_ofSingle hb hn]
  rw [e]
  exact ⟨rfl, fun rest => readFloat_of_bits hb rest⟩

/-- C59, the part that holds for float parsers: bounds that single precision can express are restored. -/
theorem C59_float_partial (p : FloatParser) (hk : StrOK p.key) (h1 : IsSingle p.min_value) (h2 : IsSingle p.max_value) :
    RoundTrips p.writeFloatTo FloatParser.readFloatFrom p := by
  unfold FloatParser.writeFloatTo FloatParser.readFloatFrom
  exact (rt_float h1).seq <| (rt_float h2).seq <| (rt_string hk).seq <|
    (rt_boolean _).map fun b => (⟨p.min_value, p.max_value, p.key, b⟩ : FloatParser)

/-- The default bounds and whole numbers like 256 are such. -/
example : IsSingle negInf ∧ IsSingle posInf ∧ IsSingle ⟨0x4070000000000000, by decide⟩ :=
  ⟨⟨0xFF800000, by decide, by decide, by decide⟩, ⟨0x7F800000, by decide, by decide, by decide⟩,
   ⟨0x43800000, by decide, by decide, by decide⟩⟩

/-- C59 is violated by float parsers for every other bound: it is either refused or restored as another
number. -/
theorem C59_float_violated (x : F64) (hn : x.isNaN = false) (hs : ¬ IsSingle x) :
    (writeFloat x).err = some .overflow ∨
    ∃ x', x' ≠ x ∧ RoundTrips (writeFloat x) readFloat x' := by
  unfold writeFloat
  cases hb : x.toSingle with
  | error e =>
    left
    unfold F64.toSingle at hb
    simp only [hn, Bool.false_eq_true, if_false] at hb
    split at hb
    · simp at hb
    · split at hb
      · simp at hb
      · simp only [Except.error.injEq] at hb; subst hb; rfl
  | ok b =>
    right
    have hlt := F64.toSingle_lt hb
    refine ⟨F64.ofSingle b hlt, ?_, rfl, fun rest => readFloat_of_bits hlt rest⟩
    intro e
    apply hs
    refine isSingle_iff.2 ⟨b, hlt, ?_, e.symm⟩
    unfold F64.toSingle at hb
    simp only [hn, Bool.false_eq_true, if_false] at hb
    split at hb
    · simp only [Except.ok.injEq] at hb; subst hb; split <;> decide
    · split at hb
      · next hm => simp only [Except.ok.injEq] at hb; subst hb; split <;> omega
      · simp at hb

example := C59_float_violated ⟨0x3FB999999999999A, by decide⟩ (by decide +kernel)
  (fun h => absurd ((rt_float h).2 []) (by decide +kernel))

/-- A float setting with maximum 0.1, restored on the other side, accepts 0.10000000149011612, which
the original refuses. -/
theorem C59_float_accepts_violated :
    let tenth : F64 := ⟨0x3FB999999999999A, by decide⟩
    let above : F64 := ⟨0x3FB99999A0000000, by decide⟩
    let p : FloatParser := ⟨negInf, tenth, "k", false⟩
    let p' : FloatParser := ⟨negInf, above, "k", false⟩
    RoundTrips p.writeFloatTo FloatParser.readFloatFrom p' ∧
    p.boundsCheck above = .error .value ∧ p'.boundsCheck above = .ok above := by
  intro tenth above p p'
  refine ⟨?_, by decide, by decide⟩
  have h1 : RoundTrips (writeFloat tenth) readFloat above := by
    have e : writeFloat tenth = W.emit (beDigits 4 0x3DCCCCCD) := by decide +kernel
    rw [e]
    refine ⟨rfl, fun rest => ?_⟩
    have := readFloat_of_bits (b := 0x3DCCCCCD) (by decide) rest
    have e2 : F64.ofSingle 0x3DCCCCCD (by decide) = above := by decide
    rw [e2] at this
    exact this
  unfold FloatParser.writeFloatTo FloatParser.readFloatFrom
  exact (rt_float ⟨0xFF800000, by decide, by decide, by decide⟩).seq <| h1.seq <|
    (rt_string (by decide)).seq <| (rt_boolean _).map fun b => (⟨negInf, above, "k", b⟩ : FloatParser)

/-! ## Regular-expression validators -/

/-- C59: a validator is restored from what it wrote. -/
theorem C59_regex (v : RegexValidator) (h : StrOK v.regex) : RoundTrips v.writeTo RegexValidator.readFrom v := by
  unfold RegexValidator.writeTo RegexValidator.readFrom
  exact (rt_string h).seq <| (rt_boolean _).map fun b => (⟨v.regex, b⟩ : RegexValidator)

example := C59_regex ⟨"a+", false⟩ (by decide +kernel)

end Verif
