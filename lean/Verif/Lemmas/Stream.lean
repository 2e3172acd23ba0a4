import Verif.Lemmas.Varint
import Verif.Lemmas.Dict
import Verif.Spec.RoundTrip
/-!
# Round-trip lemmas for the stream primitives
-/

namespace Verif
open Py StreamInput StreamOutput

theorem toBytesSigned_ok {n : Nat} {i : Int} (h1 : -(256 ^ n : Int) ≤ 2 * i) (h2 : 2 * i < 256 ^ n) :
    toBytesSigned n i = W.emit (beDigits n (i % 256 ^ n).toNat) := by
  rw [toBytesSigned, if_pos ⟨h1, h2⟩]

theorem take_append {n : Nat} {bs : Bytes} (h : bs.length = n) (rest : Bytes) :
    take n (bs ++ rest) = .ok (bs, rest) := by
  subst h; simp [StreamInput.take]

theorem rt_signed {n : Nat} (hn : 0 < n) {i : Int}
    (h1 : -(256 ^ n : Int) ≤ 2 * i) (h2 : 2 * i < 256 ^ n) :
    RoundTrips (toBytesSigned n i) (take n >>= fun bs => pure (fromBytesSigned bs)) i := by
  rw [toBytesSigned_ok h1 h2]
  refine ⟨rfl, fun rest => ?_⟩
  rw [W.emit_out, Reader.bind_ok (take_append (by simp) rest), fromBytesSigned_beDigits hn h1 h2]; rfl

theorem rt_byte {i : Int} (h1 : -(2 ^ 7) ≤ i) (h2 : i < 2 ^ 7) :
    RoundTrips (writeByte i) readByte i :=
  rt_signed (n := 1) (by decide) (by omega) (by omega)

theorem rt_int {i : Int} (h1 : -(2 ^ 31) ≤ i) (h2 : i < 2 ^ 31) :
    RoundTrips (writeInt i) readInt i :=
  rt_signed (n := 4) (by decide) (by omega) (by omega)

theorem rt_long {i : Int} (h1 : -(2 ^ 63) ≤ i) (h2 : i < 2 ^ 63) :
    RoundTrips (writeLong i) readLong i :=
  rt_signed (n := 8) (by decide) (by omega) (by omega)

theorem rt_vint {n : Nat} (h : n < 2 ^ 35) : RoundTrips (writeVInt n) readVInt n := by
  refine ⟨by simp, fun rest => ?_⟩
  rw [writeVInt_nat_out, readVInt_varint, if_pos h]

theorem rt_vlong {n : Nat} (h : n < 2 ^ 64) : RoundTrips (writeVLong n) readVLong n := by
  unfold writeVLong
  refine ⟨by simp, fun rest => ?_⟩
  rw [writeVInt_nat_out, readVLong_varint, if_pos h]

theorem rt_boolean (b : Bool) : RoundTrips (writeBoolean b) readBoolean b := by
  unfold writeBoolean readBoolean
  cases b
  · have h := rt_byte (i := 0) (by decide) (by decide)
    have := h.seq (f := fun value => if value = 0 then pure false else if value = 1 then pure true
      else Reader.throw .exception) (b := false) (RoundTrips.pure false)
    simpa using this
  · have h := rt_byte (i := 1) (by decide) (by decide)
    have := h.seq (f := fun value => if value = 0 then pure false else if value = 1 then pure true
      else Reader.throw .exception) (b := true) (RoundTrips.pure true)
    simpa using this

theorem rt_arraySize {n : Nat} (h : n ≤ 2 ^ 31) : RoundTrips (writeVInt n) readArraySize n := by
  have h1 := rt_vint (n := n) (by omega)
  have := h1.seq (f := fun array_size => if array_size > 2 ^ 31 then Reader.throw .exception
    else pure array_size) (w' := W.nil) (b := (n : Int)) (by
      have : ¬ (n : Int) > 2 ^ 31 := by omega
      simp only [this, if_false]
      exact RoundTrips.pure _)
  simpa [readArraySize] using this

theorem readBytes_nat (n : Nat) (bs : Bytes) : readBytes n bs = take n bs := by
  unfold readBytes; rw [if_neg (by omega)]; simp

theorem readBytes_append (b rest : Bytes) : readBytes b.length (b ++ rest) = .ok (b, rest) := by
  rw [readBytes_nat, take_append rfl]

theorem rt_rawBytes (b : Bytes) : RoundTrips (W.emit b) (readBytes b.length) b :=
  ⟨rfl, fun rest => readBytes_append b rest⟩

theorem rt_emitIf (b : Bytes) :
    RoundTrips (if b.length > 0 then W.emit b else W.nil) (readBytes b.length) b := by
  split
  · exact rt_rawBytes b
  · have : b = [] := by cases b <;> simp_all
    subst this; exact rt_rawBytes []

theorem rt_string {s : String} (h : StrOK s) : RoundTrips (writeString s) readString s := by
  unfold writeString readString
  refine (rt_arraySize h).seq ?_
  have := (rt_emitIf (utf8 s)).seq (f := decodeStr) (w' := W.nil) (b := s) (by
    unfold decodeStr; rw [decodeUtf8_utf8]; exact RoundTrips.pure s)
  simpa using this

/-- A length-prefixed byte string: `write_v_int(len(b)); write(b)` read by
`read_bytes(read_array_size())`. -/
theorem rt_lenBytes {b : Bytes} (h : b.length ≤ 2 ^ 31) :
    RoundTrips (writeVInt b.length ++ W.emit b) (readArraySize >>= readBytes) b :=
  (rt_arraySize h).seq (rt_rawBytes b)

theorem rt_byteArray {b : Bytes} (h : b.length ≤ 2 ^ 31) :
    RoundTrips (writeByteArray b) readByteArray b := by
  unfold writeByteArray readByteArray
  refine (rt_arraySize h).seq ?_
  by_cases hb : b = []
  · subst hb; exact RoundTrips.pure ([] : Bytes)
  · have : 0 < b.length := List.length_pos_iff.2 hb
    rw [if_pos (by omega)]; exact rt_rawBytes b

theorem rt_stringArray {l : List String} (h : StrsOK l) :
    RoundTrips (writeStringArray l) readStringArray l := by
  unfold writeStringArray readStringArray
  refine (rt_arraySize h.1).seq ?_
  rw [Int.toNat_natCast]
  have := RoundTrips.forEach (g := id) (fun s hs => rt_string (h.2 s hs))
  simpa using this

theorem rt_dict {α : Type} {wv : α → W} {rv : Reader α} {d : Dict String α} (hwf : d.WF)
    (hlen : d.length < 2 ^ 35) (h : ∀ kv ∈ d, StrOK kv.1 ∧ RoundTrips (wv kv.2) rv kv.2) :
    RoundTrips (writeVInt d.length ++ W.forEach (fun kv => writeString kv.1 ++ wv kv.2) d)
      (readDict rv) d := by
  unfold readDict
  refine (rt_vint hlen).seq ?_
  rw [Int.toNat_natCast]
  have h1 := RoundTrips.forEach (wf := fun kv : String × α => writeString kv.1 ++ wv kv.2)
    (r := readItem rv) (g := id) (l := d) (fun kv hkv => by
      unfold readItem
      refine (rt_string (h kv hkv).1).seq ?_
      exact ((h kv hkv).2).map (fun v => (kv.1, v)))
  have h2 := h1.map Dict.ofItems
  rw [List.map_id, Dict.ofItems_of_wf hwf] at h2
  exact h2

theorem rt_stringDict {d : Dict String String} (h : StrDictOK d) :
    RoundTrips (writeStringDict d) readStringDict d :=
  rt_dict h.1 h.2.1 (fun kv hkv => ⟨(h.2.2 kv hkv).1, rt_string (h.2.2 kv hkv).2⟩)

theorem rt_stringArrayDict {d : Dict String (List String)} (h : StrsDictOK d) :
    RoundTrips (writeStringArrayDict d) readStringArrayDict d :=
  rt_dict h.1 h.2.1 (fun kv hkv => ⟨(h.2.2 kv hkv).1, rt_stringArray (h.2.2 kv hkv).2⟩)

theorem rt_stringSet {l : List String} (h : StrsOK l) (hn : l.Nodup) :
    RoundTrips (writeStringSet l) (do let a ← readStringArray; return pySet a) l := by
  have := (rt_stringArray h).map pySet
  rw [pySet_of_nodup hn] at this
  exact this

theorem rt_stringSetDict {d : Dict String (List String)} (h : StrSetDictOK d) :
    RoundTrips (writeStringSetDict d) readStringSetDict d :=
  rt_dict h.1.1 h.1.2.1
    (fun kv hkv => ⟨(h.1.2.2 kv hkv).1, rt_stringSet (h.1.2.2 kv hkv).2 (h.2 kv hkv)⟩)

theorem rt_enum {α : Type} [PyEnum α] {e : α} {n : Nat} (hn : PyEnum.value e = n)
    (hlt : n < 2 ^ 35) (h : PyEnum.ofValue? (α := α) (PyEnum.value e) = some e) :
    RoundTrips (writeEnum e) (readEnum α) e := by
  unfold writeEnum readEnum
  rw [hn] at h ⊢
  have := (rt_vint hlt).seq (f := enumOf α) (w' := W.nil) (b := e)
    (by unfold enumOf; rw [h]; exact RoundTrips.pure e)
  simpa using this

theorem rt_method (m : RestMethod) : RoundTrips (writeEnum m) (readEnum RestMethod) m :=
  rt_enum (n := m.value.toNat) (by cases m <;> rfl) (by cases m <;> decide) (by cases m <;> decide)

theorem rt_httpVersion (m : HttpVersion) : RoundTrips (writeEnum m) (readEnum HttpVersion) m :=
  rt_enum (n := m.value.toNat) (by cases m <;> rfl) (by cases m <;> decide) (by cases m <;> decide)

theorem rt_status (m : RestStatus) : RoundTrips (writeEnum m) (readEnum RestStatus) m :=
  rt_enum (n := m.value.toNat) (by cases m <;> rfl) (by cases m <;> decide) (by cases m <;> decide)

theorem rt_timeUnit (m : TimeUnit) : RoundTrips (writeEnum m) (readEnum TimeUnit) m :=
  rt_enum (n := m.value.toNat) (by cases m <;> rfl) (by cases m <;> decide) (by cases m <;> decide)

theorem rt_byteSizeUnit (m : ByteSizeUnit) : RoundTrips (writeEnum m) (readEnum ByteSizeUnit) m :=
  rt_enum (n := m.value.toNat) (by cases m <;> rfl) (by cases m <;> decide) (by cases m <;> decide)

end Verif
