import Verif.Spec.Build
import Verif.Lemmas.Bits
import Verif.Lemmas.Header
import Verif.Props.Primitives
import Verif.Spec.Flags
/-!
# C19, C20: the TCP header
-/

namespace Verif
open Py StreamInput StreamOutput Spec

/-! ## C19 -/

/-- C19, round-trip: any header whose fields fit is read back field for field, whatever follows. -/
theorem C19_roundtrip (h : TcpHeader) (v : Version) (ok : HeaderOK h v) :
    RoundTrips h.writeTo TcpHeader.readFrom h := rt_header ok

example := C19_roundtrip ⟨TcpHeader.ES, -7, 9, .obj (Version.new 3000099), 40, 2⟩ (Version.new 3000099)
  (by constructor <;> decide +kernel)

/-- C19, layout: the bytes are marker(2), size(4), request id(8), status(1), version(4),
variable-header size(4), all big-endian; 23 in total. -/
theorem C19_layout (h : TcpHeader) (v : Version) (ok : HeaderOK h v) :
    ∃ sz id st ver vh : Bytes, h.writeTo.out = h.marker ++ sz ++ id ++ st ++ ver ++ vh ∧
      IsTwosComplement 4 sz h.size ∧ IsTwosComplement 8 id h.request_id ∧
      IsTwosComplement 1 st h.status ∧ (ver.length = 4 ∧ (beValue ver : Int) = v.id) ∧
      IsTwosComplement 4 vh h.variable_header_size ∧ h.writeTo.out.length = 23 := by
  have ⟨a1, a2⟩ := C01_int h.size ok.size1 ok.size2
  have ⟨b1, b2⟩ := C01_long h.request_id ok.id1 ok.id2
  have ⟨c1, c2⟩ := C01_byte h.status ok.status1 ok.status2
  have ⟨d1, d2⟩ := C01_int h.variable_header_size ok.var1 ok.var2
  refine ⟨_, _, _, beDigits 4 v.id.toNat, _, ?_, a2, b2, c2, ⟨by simp, ?_⟩, d2, header_length ok⟩
  · unfold TcpHeader.writeTo
    rw [ok.version]
    show (_ ++ (_ ++ (_ ++ (_ ++ (v.toBytes ++ _))))).out = _
    rw [version_toBytes ok.version1 ok.version2, W.out_append (by rfl), W.out_append a1.1,
      W.out_append b1.1, W.out_append c1.1, W.out_append (by rfl)]
    simp
  · rw [beValue_eq, natOfBE_beDigits, Nat.mod_eq_of_lt (by have := ok.version2; omega)]
    exact Int.toNat_of_nonneg ok.version1

example := C19_layout ⟨TcpHeader.ES, -7, 9, .obj (Version.new 3000099), 40, 2⟩ (Version.new 3000099)
  (by constructor <;> decide +kernel)

/-- C19, misfits: a header is written without exception only if every field fits; otherwise it
raises (a header without a Version, too, except that an *int* there is written as that many zero
bytes). -/
theorem C19_misfit_raises (h : TcpHeader) (v : Version) (hm : h.marker.length = 2)
    (hv : h.version = .obj v) : h.writeTo.err = none ↔ HeaderOK h v := by
  constructor
  · intro he
    unfold TcpHeader.writeTo at he
    simp only [W.err_append, W.emit_err, true_and] at he
    obtain ⟨e1, e2, e3, e4, e5⟩ := he
    have key : ∀ (n : Nat) (i : Int), (toBytesSigned n i).err = none →
        -(256 ^ n : Int) ≤ 2 * i ∧ 2 * i < 256 ^ n := by
      intro n i h; by_contra hc; rw [signed_overflow hc] at h; exact absurd h (by simp)
    have k1 := key 4 _ e1; have k2 := key 8 _ e2; have k3 := key 1 _ e3; have k5 := key 4 _ e5
    have k4 : 0 ≤ v.id ∧ v.id < 256 ^ 4 := by
      rw [hv] at e4
      by_contra hc
      have e4 : (toBytesUnsigned 4 v.id).err = none := e4
      unfold toBytesUnsigned at e4; rw [if_neg hc] at e4; exact absurd e4 (by simp)
    constructor <;> first | exact hm | exact hv | omega
  · exact fun ok => (rt_header ok).1

example := C19_misfit_raises ⟨TcpHeader.ES, 2 ^ 63, 9, .obj (Version.new 3000099), 40, 2⟩ (Version.new 3000099) rfl rfl

theorem C19_no_version_raises (h : TcpHeader) (hv : h.version = .none) : h.writeTo.err ≠ none := by
  intro he
  unfold TcpHeader.writeTo at he
  simp only [W.err_append, hv, VerField.toBytes, W.fail_err] at he
  exact absurd he.2.2.2.2.1 (by simp)

example := C19_no_version_raises ⟨TcpHeader.ES, 7, 9, .none, 40, 2⟩ rfl

/-- Every byte string of 23 bytes is a header: reading it gives fields that write back the same
bytes. -/
theorem C19_read_then_write (bs rest : Bytes) (hl : bs.length = 23) :
    ∃ h : TcpHeader, TcpHeader.readFrom (bs ++ rest) = .ok (h, rest) ∧ h.writeTo = ⟨bs, none⟩ := by
  obtain ⟨p, t1, rfl, hp⟩ : ∃ p t, bs = p ++ t ∧ p.length = 2 :=
    ⟨bs.take 2, bs.drop 2, (List.take_append_drop 2 bs).symm, by simp [hl]⟩
  rw [List.length_append, hp] at hl
  obtain ⟨sz, t2, rfl, hsz⟩ : ∃ p t, t1 = p ++ t ∧ p.length = 4 :=
    ⟨t1.take 4, t1.drop 4, (List.take_append_drop 4 t1).symm, by simp; omega⟩
  rw [List.length_append, hsz] at hl
  obtain ⟨id, t3, rfl, hid⟩ : ∃ p t, t2 = p ++ t ∧ p.length = 8 :=
    ⟨t2.take 8, t2.drop 8, (List.take_append_drop 8 t2).symm, by simp; omega⟩
  rw [List.length_append, hid] at hl
  obtain ⟨st, t4, rfl, hst⟩ : ∃ p t, t3 = p ++ t ∧ p.length = 1 :=
    ⟨t3.take 1, t3.drop 1, (List.take_append_drop 1 t3).symm, by simp; omega⟩
  rw [List.length_append, hst] at hl
  obtain ⟨ve, vh, rfl, hve⟩ : ∃ p t, t4 = p ++ t ∧ p.length = 4 :=
    ⟨t4.take 4, t4.drop 4, (List.take_append_drop 4 t4).symm, by simp; omega⟩
  rw [List.length_append, hve] at hl
  have hvh : vh.length = 4 := by omega
  have sgn : ∀ (n : Nat) (b : Bytes), b.length = n → toBytesSigned n (fromBytesSigned b) = W.emit b := by
    rintro n b rfl
    rw [toBytesSigned_ok (fromBytesSigned_range b).1 (fromBytesSigned_range b).2,
      beDigits_fromBytesSigned]
  refine ⟨⟨p, fromBytesSigned id, fromBytesSigned st, .obj (Version.fromBytes ve), fromBytesSigned sz,
    fromBytesSigned vh⟩, ?_, ?_⟩
  · unfold TcpHeader.readFrom readInt readLong readByte
    simp only [List.append_assoc, bind_assoc, pure_bind]
    have r2 : ∀ t : Bytes, readBytes 2 (p ++ t) = .ok (p, t) := fun t => by
      have := readBytes_append p t; rwa [hp] at this
    have r4 : ∀ t : Bytes, readBytes 4 (ve ++ t) = .ok (ve, t) := fun t => by
      have := readBytes_append ve t; rwa [hve] at this
    rw [Reader.bind_ok (r2 _), Reader.bind_ok (take_append hsz _), Reader.bind_ok (take_append hid _),
      Reader.bind_ok (take_append hst _), Reader.bind_ok (r4 _), Reader.bind_ok (take_append hvh _)]
    rfl
  · have hver : (Version.fromBytes ve).toBytes = W.emit ve := by
      have h0 : (0 : Int) ≤ (natOfBE ve : Int) := by omega
      have h1 : ((natOfBE ve : Nat) : Int) < 2 ^ 32 := by
        have := natOfBE_lt ve; rw [hve] at this; omega
      rw [version_toBytes (v := Version.fromBytes ve) h0 h1]
      have : beDigits 4 (natOfBE ve) = ve := by have := beDigits_natOfBE ve; rwa [hve] at this
      simp only [Version.fromBytes, fromBytesUnsigned, Int.toNat_natCast, this]
    unfold TcpHeader.writeTo writeInt writeLong writeByte
    show W.emit p ++ (_ ++ (_ ++ (_ ++ ((Version.fromBytes ve).toBytes ++ _)))) = _
    rw [sgn 4 sz hsz, sgn 8 id hid, sgn 1 st hst, sgn 4 vh hvh, hver]
    rfl

example := C19_read_then_write (List.replicate 23 0x80) [1] (by decide)

example : ∃ v, HeaderOK ⟨TcpHeader.ES, 7, 9, .obj (Version.new 3000099), 40, 2⟩ v :=
  ⟨Version.new 3000099, by constructor <;> decide +kernel⟩

/-! ## C20 -/

theorem isStatus_eq (h : TcpHeader) (k : Nat) :
    h.isStatus ((2 ^ k : Nat) : Int) = h.status.testBit k := by
  unfold TcpHeader.isStatus
  by_cases hb : h.status.testBit k = true
  · rw [hb]; simpa using (land_two_pow_ne_zero h.status k).2 hb
  · have : ¬ Int.land h.status ((2 ^ k : Nat) : Int) ≠ 0 := fun hc => hb ((land_two_pow_ne_zero _ _).1 hc)
    rw [Bool.not_eq_true] at hb
    rw [hb]; simpa using this

theorem testBit_setStatus (h : TcpHeader) (k j : Nat) (b : Bool) :
    (h.setStatus ((2 ^ k : Nat) : Int) b).status.testBit j =
      if j = k then b else h.status.testBit j := by
  unfold TcpHeader.setStatus
  cases b
  · simp only [Bool.false_eq_true, if_false, Int.testBit_land, Int.testBit_lnot,
      testBit_natCast_two_pow]
    by_cases hj : j = k
    · simp [hj]
    · simp [hj, Ne.symm hj]
  · simp only [if_true, Int.testBit_lor, testBit_natCast_two_pow]
    by_cases hj : j = k
    · simp [hj]
    · simp [hj, Ne.symm hj]

theorem status_range_table : ∀ s : Fin 256, ∀ f : Fin 4,
    let st : Int := (s : Nat) - 128
    let fl : Int := ((2 ^ (f : Nat) : Nat) : Int)
    (-(2 ^ 7) ≤ Int.lor st fl ∧ Int.lor st fl < 2 ^ 7) ∧
    (-(2 ^ 7) ≤ Int.land st (Int.lnot fl) ∧ Int.land st (Int.lnot fl) < 2 ^ 7) := by
  decide +kernel

theorem setStatus_range (h : TcpHeader) (k : Nat) (hk : k < 4) (b : Bool)
    (h1 : -(2 ^ 7) ≤ h.status) (h2 : h.status < 2 ^ 7) :
    -(2 ^ 7) ≤ (h.setStatus ((2 ^ k : Nat) : Int) b).status ∧
      (h.setStatus ((2 ^ k : Nat) : Int) b).status < 2 ^ 7 := by
  have t := status_range_table ⟨(h.status + 128).toNat, by omega⟩ ⟨k, hk⟩
  have e : (((h.status + 128).toNat : Nat) : Int) - 128 = h.status := by omega
  simp only [e] at t
  unfold TcpHeader.setStatus
  cases b
  · exact t.2
  · exact t.1

/-- What one assignment does, on every header (any status integer, negative ones included). -/
theorem assign_step (h : TcpHeader) (a : Assign) :
    (assign h a).flags = a.effect h.flags ∧
    (∀ j, 4 ≤ j → (assign h a).status.testBit j = h.status.testBit j) ∧
    (-(2 ^ 7) ≤ h.status → h.status < 2 ^ 7 →
      -(2 ^ 7) ≤ (assign h a).status ∧ (assign h a).status < 2 ^ 7) ∧
    ((assign h a).marker = h.marker ∧ (assign h a).request_id = h.request_id ∧
      (assign h a).version = h.version ∧ (assign h a).size = h.size ∧
      (assign h a).variable_header_size = h.variable_header_size) := by
  have fl : ∀ h : TcpHeader, h.flags = ⟨h.status.testBit 0, h.status.testBit 1, h.status.testBit 2,
      h.status.testBit 3⟩ := by
    intro h
    unfold TcpHeader.flags TcpHeader.isResponse TcpHeader.isError TcpHeader.isCompress TcpHeader.isHandshake
    have := isStatus_eq h
    rw [← this 0, ← this 1, ← this 2, ← this 3]; rfl
  have common : ∀ (k : Nat) (b : Bool), k < 4 → assign h a = h.setStatus ((2 ^ k : Nat) : Int) b →
      (∀ j, 4 ≤ j → (assign h a).status.testBit j = h.status.testBit j) ∧
      (-(2 ^ 7) ≤ h.status → h.status < 2 ^ 7 →
        -(2 ^ 7) ≤ (assign h a).status ∧ (assign h a).status < 2 ^ 7) ∧
      ((assign h a).marker = h.marker ∧ (assign h a).request_id = h.request_id ∧
        (assign h a).version = h.version ∧ (assign h a).size = h.size ∧
        (assign h a).variable_header_size = h.variable_header_size) := by
    intro k b hk e
    rw [e]
    refine ⟨fun j hj => ?_, fun h1 h2 => setStatus_range h k hk b h1 h2, ?_⟩
    · rw [testBit_setStatus, if_neg (by omega)]
    · unfold TcpHeader.setStatus; cases b <;> simp
  rw [fl, fl]
  cases a with
  | response b =>
    refine ⟨?_, common 0 b (by decide) rfl⟩
    have t := fun j => testBit_setStatus h 0 j b
    show Flags.mk _ _ _ _ = _
    simp only [Assign.effect]
    rw [show (assign h (.response b)) = h.setStatus ((2 ^ 0 : Nat) : Int) b from rfl, t, t, t, t]
    rfl
  | request b =>
    refine ⟨?_, common 0 (!b) (by decide) rfl⟩
    have t := fun j => testBit_setStatus h 0 j (!b)
    simp only [Assign.effect]
    rw [show (assign h (.request b)) = h.setStatus ((2 ^ 0 : Nat) : Int) (!b) from rfl, t, t, t, t]
    rfl
  | error b =>
    refine ⟨?_, common 1 b (by decide) rfl⟩
    have t := fun j => testBit_setStatus h 1 j b
    simp only [Assign.effect]
    rw [show (assign h (.error b)) = h.setStatus ((2 ^ 1 : Nat) : Int) b from rfl, t, t, t, t]
    rfl
  | compress b =>
    refine ⟨?_, common 2 b (by decide) rfl⟩
    have t := fun j => testBit_setStatus h 2 j b
    simp only [Assign.effect]
    rw [show (assign h (.compress b)) = h.setStatus ((2 ^ 2 : Nat) : Int) b from rfl, t, t, t, t]
    rfl
  | handshake b =>
    refine ⟨?_, common 3 b (by decide) rfl⟩
    have t := fun j => testBit_setStatus h 3 j b
    simp only [Assign.effect]
    rw [show (assign h (.handshake b)) = h.setStatus ((2 ^ 3 : Nat) : Int) b from rfl, t, t, t, t]
    rfl

/-- C20: from any header, after any sequence of assignments, each flag has the value last assigned
to it (its original one if none was); everything else in the header, the undocumented status bits
included, is unchanged; and a status that fits a byte still does. -/
theorem C20_independent (h : TcpHeader) (as : List Assign) :
    (as.foldl assign h).flags = as.foldl Assign.effect h.flags ∧
    (∀ j, 4 ≤ j → (as.foldl assign h).status.testBit j = h.status.testBit j) ∧
    (-(2 ^ 7) ≤ h.status → h.status < 2 ^ 7 →
      -(2 ^ 7) ≤ (as.foldl assign h).status ∧ (as.foldl assign h).status < 2 ^ 7) ∧
    ((as.foldl assign h).marker = h.marker ∧ (as.foldl assign h).request_id = h.request_id ∧
      (as.foldl assign h).version = h.version ∧ (as.foldl assign h).size = h.size ∧
      (as.foldl assign h).variable_header_size = h.variable_header_size) := by
  induction as generalizing h with
  | nil => exact ⟨rfl, fun _ _ => rfl, fun a b => ⟨a, b⟩, rfl, rfl, rfl, rfl, rfl⟩
  | cons a as ih =>
    obtain ⟨i1, i2, i3, i4, i5, i6, i7, i8⟩ := ih (assign h a)
    obtain ⟨s1, s2, s3, s4, s5, s6, s7, s8⟩ := assign_step h a
    refine ⟨by rw [List.foldl_cons, i1, s1, List.foldl_cons], fun j hj => (i2 j hj).trans (s2 j hj),
      fun h1 h2 => i3 (s3 h1 h2).1 (s3 h1 h2).2, i4.trans s4, i5.trans s5, i6.trans s6, i7.trans s7,
      i8.trans s8⟩

/-- C20, reporting: `is_request` is the negation of `is_response`, and `statuses` lists exactly the
flags that are set. -/
theorem C20_statuses (h : TcpHeader) :
    h.isRequest = !h.flags.response ∧ h.statuses = h.flags.names := by
  refine ⟨rfl, ?_⟩
  unfold TcpHeader.statuses Flags.names TcpHeader.flags TcpHeader.isRequest
  cases h.isResponse <;> rfl

/-- The constructor flags: a header built with status 0 reports a plain request, with status 1 a
plain response. -/
theorem C20_initial (ver : VerField) (rid : Option Int) (ids : Nat) :
    (TcpHeader.new ver 0 rid ids).1.flags = ⟨false, false, false, false⟩ ∧
    (TcpHeader.new ver 1 rid ids).1.flags = ⟨true, false, false, false⟩ := by
  unfold TcpHeader.new
  constructor <;> (cases rid <;> simp only) <;> (try split) <;> rfl

example : ([Assign.handshake true, .request false, .handshake false, .error true].foldl assign
    (TcpHeader.new .none 0 none 3).1).statuses = ["response", "error"] := by decide +kernel

end Verif
