import Verif.Lemmas.Values
import Verif.Lemmas.VarintSpec
import Verif.Lemmas.Utf8
import Verif.Spec.Bytes
/-!
# Properties C01 - C08: integers, varints, booleans, strings
-/

namespace Verif
open Py StreamInput StreamOutput Spec

theorem beValue_eq (bs : Bytes) : beValue bs = natOfBE bs := by
  induction bs with
  | nil => rfl
  | cons b bs ih => rw [beValue, natOfBE_cons, ih]

theorem signed_write_spec {n : Nat} {i : Int} (h1 : -(256 ^ n : Int) ≤ 2 * i) (h2 : 2 * i < 256 ^ n) :
    (toBytesSigned n i).err = none ∧ IsTwosComplement n (toBytesSigned n i).out i := by
  rw [toBytesSigned_ok h1 h2]
  refine ⟨rfl, by simp, h1, h2, ?_⟩
  have hpos : (0 : Int) < 256 ^ n := by positivity
  have hm1 : 0 ≤ i % 256 ^ n := Int.emod_nonneg _ (by omega)
  have hm2 : i % 256 ^ n < 256 ^ n := Int.emod_lt_of_pos _ hpos
  rw [W.emit_out, beValue_eq, natOfBE_beDigits, Nat.mod_eq_of_lt]
  · omega
  · have : ((256 ^ n : Nat) : Int) = 256 ^ n := by push_cast; rfl
    omega

theorem signed_overflow {n : Nat} {i : Int} (h : ¬ (-(256 ^ n : Int) ≤ 2 * i ∧ 2 * i < 256 ^ n)) :
    toBytesSigned n i = ⟨[], some .overflow⟩ := by
  unfold toBytesSigned; rw [if_neg h]; rfl

/-! ## C01 -/

/-- C01, bytes: in range, exactly one two's-complement byte is written and read back. -/
theorem C01_byte (i : Int) (h1 : -(2 ^ 7) ≤ i) (h2 : i < 2 ^ 7) :
    RoundTrips (writeByte i) readByte i ∧ IsTwosComplement 1 (writeByte i).out i :=
  ⟨rt_byte h1 h2, (signed_write_spec (n := 1) (by omega) (by omega)).2⟩

example := C01_byte (-2) (by decide) (by decide)

/-- C01, ints: in range, exactly four big-endian two's-complement bytes are written and read back. -/
theorem C01_int (i : Int) (h1 : -(2 ^ 31) ≤ i) (h2 : i < 2 ^ 31) :
    RoundTrips (writeInt i) readInt i ∧ IsTwosComplement 4 (writeInt i).out i :=
  ⟨rt_int h1 h2, (signed_write_spec (n := 4) (by omega) (by omega)).2⟩

example := C01_int (-(2 ^ 31)) (by decide) (by decide)

/-- C01, longs: in range, exactly eight big-endian two's-complement bytes are written and read back. -/
theorem C01_long (i : Int) (h1 : -(2 ^ 63) ≤ i) (h2 : i < 2 ^ 63) :
    RoundTrips (writeLong i) readLong i ∧ IsTwosComplement 8 (writeLong i).out i :=
  ⟨rt_long h1 h2, (signed_write_spec (n := 8) (by omega) (by omega)).2⟩

example := C01_long (2 ^ 63 - 1) (by decide) (by decide)

/-- C01, overflow: out of range, OverflowError and not a single byte. -/
theorem C01_overflow (i : Int) :
    ((i < -(2 ^ 7) ∨ 2 ^ 7 ≤ i) → writeByte i = ⟨[], some .overflow⟩) ∧
    ((i < -(2 ^ 31) ∨ 2 ^ 31 ≤ i) → writeInt i = ⟨[], some .overflow⟩) ∧
    ((i < -(2 ^ 63) ∨ 2 ^ 63 ≤ i) → writeLong i = ⟨[], some .overflow⟩) := by
  refine ⟨fun h => signed_overflow (n := 1) ?_, fun h => signed_overflow (n := 4) ?_,
    fun h => signed_overflow (n := 8) ?_⟩ <;> omega

example : writeByte 128 = ⟨[], some .overflow⟩ ∧ writeLong (-(2 ^ 63) - 1) = ⟨[], some .overflow⟩ :=
  ⟨(C01_overflow 128).1 (by decide), (C01_overflow _).2.2 (by decide)⟩

/-- C01, reading: any 1 / 2 / 4 / 8 bytes are read as the integer they represent. -/
theorem C01_read (bs rest : Bytes) :
    (bs.length = 1 → ∃ i, readByte (bs ++ rest) = .ok (i, rest) ∧ IsTwosComplement 1 bs i) ∧
    (bs.length = 2 → ∃ i, readShort (bs ++ rest) = .ok (i, rest) ∧ IsTwosComplement 2 bs i) ∧
    (bs.length = 4 → ∃ i, readInt (bs ++ rest) = .ok (i, rest) ∧ IsTwosComplement 4 bs i) ∧
    (bs.length = 8 → ∃ i, readLong (bs ++ rest) = .ok (i, rest) ∧ IsTwosComplement 8 bs i) := by
  have key : ∀ n, bs.length = n →
      ∃ i, (take n >>= fun bs => (pure (fromBytesSigned bs) : Reader Int)) (bs ++ rest) = .ok (i, rest)
        ∧ IsTwosComplement n bs i := by
    rintro n rfl
    refine ⟨fromBytesSigned bs, ?_, rfl, (fromBytesSigned_range bs).1, (fromBytesSigned_range bs).2, ?_⟩
    · rw [Reader.bind_ok (take_append rfl rest)]; rfl
    · rw [beValue_eq]
      have h := congrArg natOfBE (beDigits_fromBytesSigned bs)
      rw [natOfBE_beDigits] at h
      have hpos : (0 : Int) < 256 ^ bs.length := by positivity
      have hm1 : 0 ≤ fromBytesSigned bs % 256 ^ bs.length := Int.emod_nonneg _ (by omega)
      have hm2 : fromBytesSigned bs % 256 ^ bs.length < 256 ^ bs.length := Int.emod_lt_of_pos _ hpos
      have e1 : ((256 ^ bs.length : Nat) : Int) = 256 ^ bs.length := by push_cast; rfl
      rw [Nat.mod_eq_of_lt (by omega)] at h
      omega
  exact ⟨key 1, key 2, key 4, key 8⟩

example : (writeInt (-2)).out = [0xFF, 0xFF, 0xFF, 0xFE] := by decide
example : readInt ([0xFF, 0xFF, 0xFF, 0xFE] ++ [7]) = .ok (-2, [7]) := by decide +kernel
example : writeInt (2 ^ 31) = ⟨[], some .overflow⟩ := by decide

/-! ## C02 -/

/-- C02: every v_int below 2^35 round-trips, in one to five bytes. -/
theorem C02_roundtrip (i : Nat) (h : i < 2 ^ 35) :
    RoundTrips (writeVInt i) readVInt i ∧
    1 ≤ (writeVInt i).out.length ∧ (writeVInt i).out.length ≤ 5 := by
  refine ⟨rt_vint h, ?_⟩
  rw [writeVInt_nat_out]
  exact ⟨varint_length_pos i, (varint_length_le 4 i).2 (by omega)⟩

example := C02_roundtrip (2 ^ 35 - 1) (by decide)

/-- C02, too large: the write succeeds, the read raises. -/
theorem C02_too_large (i : Nat) (h : 2 ^ 35 ≤ i) :
    (writeVInt i).err = none ∧ ∀ rest, readVInt ((writeVInt i).out ++ rest) = .error .exception := by
  refine ⟨by simp, fun rest => ?_⟩
  rw [writeVInt_nat_out, readVInt_varint, if_neg (by omega)]

example := C02_too_large (2 ^ 35) (by decide)

/-- Negative numbers are outside the format: below -128 the write raises OverflowError (although
the comment at stream_input.py:63-66 promises five bytes); from -128 to -1 it writes one byte with
the continuation bit set, i.e. not a complete varint. -/
theorem C02_negative (i : Int) (h : i < 0) :
    (i < -128 → writeVInt i = ⟨[], some .overflow⟩) ∧
    (-128 ≤ i → ∃ b : UInt8, writeVInt i = ⟨[b], none⟩ ∧ 128 ≤ b.toNat) := by
  have e : writeVInt i = writeByte i := by unfold writeVInt; rw [if_pos (by omega)]
  rw [e]
  refine ⟨fun h' => (C01_overflow i).1 (by omega), fun h' => ?_⟩
  have h1 := signed_write_spec (n := 1) (i := i) (by omega) (by omega)
  change (writeByte i).err = none ∧ IsTwosComplement 1 (writeByte i).out i at h1
  obtain ⟨he, hl, -, -, hv⟩ := h1
  obtain ⟨b, hb⟩ := List.length_eq_one_iff.1 hl
  refine ⟨b, W.ext' hb he, ?_⟩
  rw [hb] at hv
  have : i % 256 ^ 1 = i + 256 := emod_pow_of_neg (n := 1) h (by omega)
  rw [this] at hv
  simp [beValue] at hv
  omega

example := C02_negative (-1) (by decide)

example : (writeVInt 300).out = [0xAC, 0x02] := by decide +kernel
example : readVInt [0xAC, 0x02, 9] = .ok (300, [9]) := by decide +kernel

/-! ## C03 -/

/-- C03: every v_long below 2^64 round-trips, in one to ten bytes; larger ones are refused on
reading. -/
theorem C03_roundtrip (i : Nat) :
    (i < 2 ^ 64 → RoundTrips (writeVLong i) readVLong i ∧ (writeVLong i).out.length ≤ 10) ∧
    (2 ^ 64 ≤ i → (writeVLong i).err = none ∧
      ∀ rest, readVLong ((writeVLong i).out ++ rest) = .error .exception) := by
  refine ⟨fun h => ⟨rt_vlong h, ?_⟩, fun h => ⟨by simp [writeVLong], fun rest => ?_⟩⟩
  · unfold writeVLong; rw [writeVInt_nat_out]; exact (varint_length_le 9 i).2 (by omega)
  · unfold writeVLong; rw [writeVInt_nat_out, readVLong_varint, if_neg (by omega)]

example : readVLong ((writeVLong (2 ^ 64 - 1)).out ++ [1]) = .ok (2 ^ 64 - 1, [1]) := by
  decide +kernel

/-! ## C04 -/

/-- C04: the bytes of `write_v_int(i)` (and of `write_v_long(i)`) are the minimal base-128 varint
of `i`, and `v_int_size(i)` is their number. -/
theorem C04_varint (i : Nat) :
    (writeVInt i).err = none ∧ IsVarint (writeVInt i).out i ∧
    writeVLong i = writeVInt i ∧ vIntSize i = (writeVInt i).out.length := by
  refine ⟨by simp, ?_, rfl, ?_⟩
  · rw [writeVInt_nat_out]; exact isVarint_varint i
  · rw [writeVInt_nat_out, vIntSize_nat]

/-- C04: the specification determines the bytes. -/
theorem C04_unique (bs : Bytes) (i : Nat) (h : IsVarint bs i) : bs = (writeVInt i).out := by
  rw [writeVInt_nat_out]; exact isVarint_unique h

example : [0xAC, 0x02] = (writeVInt (300 : Nat)).out := C04_unique _ 300 (by constructor <;> decide)

example : vIntSize 16384 = 3 := by decide +kernel

/-! ## C05 -/

/-- C05: z_longs of magnitude below 2^63 round-trip. -/
theorem C05_roundtrip (i : Int) (h : i.natAbs < 2 ^ 63) : RoundTrips (writeZLong i) readZLong i :=
  rt_zlong (by omega) (by omega)

example := C05_roundtrip (-5) (by decide)

/-- C05: every other integer raises ValueError and writes nothing. -/
theorem C05_out_of_range (i : Int) (h : 2 ^ 63 ≤ i.natAbs) : writeZLong i = ⟨[], some .value⟩ := by
  rw [writeZLong_eq, if_neg]; · rfl
  rw [zz_lt]; omega

example := C05_out_of_range (-(2 ^ 63)) (by decide)

example : readZLong ((writeZLong (-5)).out ++ [1]) = .ok (-5, [1]) := by decide +kernel
example : (-5 : Int).natAbs < 2 ^ 63 := by decide

/-! ## C06 (violated for negative numbers) -/

/-- C06, the part that holds: non-negative numbers are written as their zig-zag varint. -/
theorem C06_nonneg_partial (i : Int) (h0 : 0 ≤ i) (h : i < 2 ^ 63) :
    (writeZLong i).err = none ∧ IsVarint (writeZLong i).out (zigzag i).toNat := by
  have hz : zz i = (zigzag i).toNat := by
    unfold zz zigzag; rw [if_neg (by omega), if_pos h0]; omega
  rw [writeZLong_eq, if_pos (zz_lt.2 (by omega))]
  refine ⟨rfl, ?_⟩
  rw [W.emit_out, hz]; exact isVarint_varint _

example := C06_nonneg_partial 300 (by decide) (by decide)

/-- C06 is false: every negative number is written as the zig-zag encoding of its predecessor,
so a standard peer reads `i - 1`. -/
theorem C06_violated (i : Int) (h0 : i < 0) (h : -(2 ^ 63) < i) :
    (writeZLong i).err = none ∧ IsVarint (writeZLong i).out (zigzag (i - 1)).toNat ∧
    ¬ IsVarint (writeZLong i).out (zigzag i).toNat := by
  have hz : zz i = (zigzag (i - 1)).toNat := by
    unfold zz zigzag; rw [if_pos h0, if_neg (by omega)]; omega
  rw [writeZLong_eq, if_pos (zz_lt.2 (by omega))]
  refine ⟨rfl, ?_, ?_⟩
  · rw [W.emit_out, hz]; exact isVarint_varint _
  · rw [W.emit_out, hz]
    intro hc
    have := hc.value
    rw [(isVarint_varint _).value] at this
    unfold zigzag at this
    rw [if_neg (by omega), if_neg (by omega)] at this
    omega

example := C06_violated (-300) (by decide) (by decide)

/-- Reading has the same defect: the standard encoding of a negative number is read as its
successor. -/
theorem C06_read_violated (i : Int) (h0 : i < 0) (h : -(2 ^ 63) ≤ i) (bs rest : Bytes)
    (hbs : IsVarint bs (zigzag i).toNat) : readZLong (bs ++ rest) = .ok (i + 1, rest) := by
  rw [isVarint_unique hbs]
  have hz : (zigzag i).toNat = 2 * i.natAbs - 1 := by
    unfold zigzag; rw [if_neg (by omega)]; omega
  unfold readZLong
  rw [Reader.bind_ok (by rw [readVLong_varint, if_pos (by omega)]), Reader.pure_def, int_land_one]
  have : (((zigzag i).toNat : Nat) : Int) >>> 1 = (((zigzag i).toNat / 2 : Nat) : Int) := by
    show ((_ >>> 1 : Nat) : Int) = _
    rw [Nat.shiftRight_eq_div_pow]
  rw [this, if_pos (by omega)]
  congr 2; omega

example := C06_read_violated (-2) (by decide) (by decide) [3] [7] (by constructor <;> decide)

example : (writeZLong (-1)).out = [3] ∧ zigzag (-1) = 1 := by decide +kernel

/-! ## C07 -/

/-- C07: booleans round-trip, and the readers accept exactly the documented bytes. -/
theorem C07_boolean :
    (∀ b, RoundTrips (writeBoolean b) readBoolean b) ∧
    (∀ (x : UInt8) (rest : Bytes), readBoolean (x :: rest) =
      if x = 0 then .ok (false, rest) else if x = 1 then .ok (true, rest) else .error .exception) ∧
    (∀ (x : UInt8) (rest : Bytes), readOptionalBoolean (x :: rest) =
      if x = 0 then .ok (some false, rest) else if x = 1 then .ok (some true, rest)
      else if x = 2 then .ok (none, rest) else .error .exception) := by
  have hs : ∀ (x : UInt8) (k : Nat), k < 128 → (sbyte x = (k : Int) ↔ x.toNat = k) := by
    intro x k hk
    have : x.toNat < 256 := x.toNat_lt
    unfold sbyte; split <;> omega
  have h0 : ∀ x : UInt8, sbyte x = 0 ↔ x = 0 := fun x => by
    rw [show (0 : Int) = ((0 : Nat) : Int) from rfl, hs x 0 (by omega), ← UInt8.toNat_inj]; rfl
  have h1 : ∀ x : UInt8, sbyte x = 1 ↔ x = 1 := fun x => by
    rw [show (1 : Int) = ((1 : Nat) : Int) from rfl, hs x 1 (by omega), ← UInt8.toNat_inj]; rfl
  have h2 : ∀ x : UInt8, sbyte x = 2 ↔ x = 2 := fun x => by
    rw [show (2 : Int) = ((2 : Nat) : Int) from rfl, hs x 2 (by omega), ← UInt8.toNat_inj]; rfl
  refine ⟨rt_boolean, fun x rest => ?_, fun x rest => ?_⟩
  · unfold readBoolean
    rw [Reader.bind_ok (readByte_cons x rest)]
    simp only [h0, h1]
    split
    · rfl
    · split <;> rfl
  · unfold readOptionalBoolean
    rw [Reader.bind_ok (readByte_cons x rest)]
    simp only [h0, h1, h2]
    by_cases e2 : x = 2
    · subst e2; simp [Reader.pure_def]
    · rw [if_neg e2]
      split
      · rfl
      · split <;> simp [Reader.pure_def, Reader.throw_def]

/-! ## C08 -/

/-- C08: every string of at most 2^31 encoded bytes round-trips. -/
theorem C08_roundtrip (s : String) (h : (utf8 s).length ≤ 2 ^ 31) :
    RoundTrips (writeString s) readString s := rt_string h

example := C08_roundtrip "é√" (by decide +kernel)

/-- What `readArraySize` accepts is a number between 0 and 2^31. -/
theorem readVInt_nonneg {bs rest : Bytes} {n : Int} (h : readVInt bs = .ok (n, rest)) : 0 ≤ n := by
  have key : ∀ (sh i : Nat) (k : Nat → Reader Int), (∀ j bs n rest, k j bs = .ok (n, rest) → 0 ≤ n) →
      ∀ bs n rest, vstep sh i k bs = .ok (n, rest) → 0 ≤ n := by
    intro sh i k hk bs n rest h
    unfold vstep at h
    rw [Reader.bind_eq_ok] at h
    obtain ⟨b, mid, _, h⟩ := h
    split at h
    · cases h; omega
    · exact hk _ _ _ _ h
  have hl : ∀ i bs n rest, vintLast i bs = .ok (n, rest) → 0 ≤ n := by
    intro i bs n rest h
    unfold vintLast at h
    rw [Reader.bind_eq_ok] at h
    obtain ⟨b, mid, _, h⟩ := h
    split at h
    · cases h
    · cases h; omega
  rw [readVInt_steps] at h
  refine key _ _ _ (fun i => ?_) _ _ _ h
  refine key _ _ _ (fun i => ?_)
  refine key _ _ _ (fun i => ?_)
  exact key _ _ _ (fun i => hl i)

theorem readArraySize_range {bs rest : Bytes} {n : Int} (h : readArraySize bs = .ok (n, rest)) :
    0 ≤ n ∧ n ≤ 2 ^ 31 := by
  unfold readArraySize at h
  rw [Reader.bind_eq_ok] at h
  obtain ⟨m, mid, h1, h2⟩ := h
  split at h2
  · cases h2
  · cases h2; exact ⟨readVInt_nonneg h1, by omega⟩

/-- C08, converse: whenever `read_string` returns `s`, the bytes it consumed after the length
prefix are exactly the UTF-8 encoding of `s`; they are as many as the prefix announced, or fewer
if the input ended. -/
theorem C08_accepts_only_utf8 (input rest : Bytes) (s : String)
    (h : readString input = .ok (s, rest)) :
    ∃ n : Nat, readArraySize input = .ok ((n : Int), utf8 s ++ rest) ∧
      ((utf8 s).length = n ∨ ((utf8 s).length < n ∧ rest = [])) := by
  unfold readString at h
  rw [Reader.bind_eq_ok] at h
  obtain ⟨n, mid, h1, h⟩ := h
  rw [Reader.bind_eq_ok] at h
  obtain ⟨b, mid2, h2, h3⟩ := h
  have hr := readArraySize_range h1
  lift n to Nat using hr.1
  rw [readBytes_nat, StreamInput.take] at h2
  cases h2
  unfold decodeStr at h3
  cases hs : decodeUtf8? (List.take n mid) with
  | none => rw [hs] at h3; cases h3
  | some s' =>
    rw [hs] at h3
    cases h3
    rw [decodeUtf8_eq_some] at hs
    refine ⟨n, ?_, ?_⟩
    · rw [h1, ← hs, List.take_append_drop]
    · rw [← hs, List.length_take]
      by_cases hn : n ≤ mid.length
      · left; omega
      · right; refine ⟨by omega, ?_⟩
        rw [List.drop_eq_nil_iff]; omega

example := C08_accepts_only_utf8 [2, 0xC3, 0xA9, 7] [7] "é" (by decide +kernel)

/-- C08, malformed: a length-prefixed byte string that is nobody's UTF-8 encoding raises
UnicodeDecodeError. -/
theorem C08_malformed_rejected (b rest : Bytes) (hlen : b.length ≤ 2 ^ 31)
    (hbad : ∀ s : String, utf8 s ≠ b) :
    readString ((writeVInt b.length).out ++ (b ++ rest)) = .error .unicode := by
  unfold readString
  rw [Reader.bind_ok ((rt_arraySize hlen).2 _), Reader.bind_ok (readBytes_append b rest)]
  unfold decodeStr
  cases h : decodeUtf8? b with
  | none => rfl
  | some s => exact absurd (decodeUtf8_eq_some.1 h).symm (hbad s)

example := C08_malformed_rejected [0xC3, 0x28] [7] (by decide) (fun s h => by
  have h2 := decodeUtf8_eq_some.2 h.symm
  rw [show decodeUtf8? [0xC3, 0x28] = none by decide +kernel] at h2
  cases h2)

/-- C08, too long: a string of more than 2^31 bytes is written but refused by the reader. -/
theorem C08_too_long (s : String) (rest : Bytes) (h : 2 ^ 31 < (utf8 s).length) :
    (writeString s).err = none ∧ readString ((writeString s).out ++ rest) = .error .exception := by
  have e : writeString s = W.emit (varint (utf8 s).length ++ utf8 s) := by
    unfold writeString
    simp only
    rw [if_pos (by omega), writeVInt_nat]; rfl
  rw [e]
  refine ⟨rfl, ?_⟩
  rw [W.emit_out, List.append_assoc]
  apply Reader.bind_error
  unfold readArraySize
  by_cases h35 : (utf8 s).length < 2 ^ 35
  · rw [Reader.bind_ok (by rw [readVInt_varint, if_pos h35]), if_pos (by omega)]; rfl
  · exact Reader.bind_error (by rw [readVInt_varint, if_neg h35])

example : readString ((writeString "é√").out ++ [1]) = .ok ("é√", [1]) := by decide +kernel
example : readString [2, 0xC3, 0x28] = .error .unicode := by decide +kernel
example : ∀ s : String, utf8 s ≠ [0xC3, 0x28] := by
  intro s h
  have := decodeUtf8_eq_some.2 h.symm
  rw [show decodeUtf8? [0xC3, 0x28] = none by decide +kernel] at this
  cases this

end Verif
