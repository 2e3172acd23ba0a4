import Verif.Spec.Domains
import Verif.Lemmas.Stream
import Verif.Model.Header
/-! Reading back a header. -/

namespace Verif
open Py StreamInput StreamOutput

theorem version_toBytes {v : Version} (h1 : 0 ≤ v.id) (h2 : v.id < 2 ^ 32) :
    v.toBytes = W.emit (beDigits 4 v.id.toNat) := by
  unfold Version.toBytes toBytesUnsigned
  have : 0 ≤ v.id ∧ v.id < 256 ^ 4 := ⟨h1, by omega⟩
  rw [if_pos this]

theorem fromBytes_beDigits {v : Version} (h1 : 0 ≤ v.id) (h2 : v.id < 2 ^ 32) :
    Version.fromBytes (beDigits 4 v.id.toNat) = v := by
  cases v with
  | mk i =>
    simp only [Version.fromBytes, fromBytesUnsigned, natOfBE_beDigits, Version.mk.injEq]
    simp only at h1 h2
    rw [Nat.mod_eq_of_lt (by omega)]; omega

theorem rt_header {h : TcpHeader} {v : Version} (ok : HeaderOK h v) :
    RoundTrips h.writeTo TcpHeader.readFrom h := by
  have e : h = ⟨h.marker, h.request_id, h.status, .obj v, h.size, h.variable_header_size⟩ := by
    rw [← ok.version]
  unfold TcpHeader.writeTo TcpHeader.readFrom
  have hm := rt_rawBytes h.marker
  rw [ok.marker] at hm
  refine hm.seq ((rt_int ok.size1 ok.size2).seq ((rt_long ok.id1 ok.id2).seq
    ((rt_byte ok.status1 ok.status2).seq ?_)))
  rw [ok.version]
  show RoundTrips (v.toBytes ++ _) _ _
  rw [version_toBytes ok.version1 ok.version2]
  have hv := rt_rawBytes (beDigits 4 v.id.toNat)
  rw [beDigits_length] at hv
  refine hv.seq ?_
  have hl := rt_int ok.var1 ok.var2
  have := hl.map fun n => (⟨h.marker, h.request_id, h.status,
    .obj (Version.fromBytes (beDigits 4 v.id.toNat)), h.size, n⟩ : TcpHeader)
  rw [fromBytes_beDigits ok.version1 ok.version2] at this
  rw [e, fromBytes_beDigits ok.version1 ok.version2]
  exact this

theorem header_length {h : TcpHeader} {v : Version} (ok : HeaderOK h v) :
    h.writeTo.out.length = 23 := by
  unfold TcpHeader.writeTo
  have h1 := rt_int ok.size1 ok.size2
  have h2 := rt_long ok.id1 ok.id2
  have h3 := rt_byte ok.status1 ok.status2
  rw [ok.version]
  show (_ ++ (_ ++ (_ ++ (_ ++ (v.toBytes ++ _))))).out.length = _
  rw [version_toBytes ok.version1 ok.version2, W.out_append (by rfl), W.out_append h1.1,
    W.out_append h2.1, W.out_append h3.1, W.out_append (by rfl)]
  have l1 : (writeInt h.size).out.length = 4 := by
    unfold writeInt; rw [toBytesSigned_ok (by have := ok.size1; omega) (by have := ok.size2; omega)]; simp
  have l2 : (writeLong h.request_id).out.length = 8 := by
    unfold writeLong; rw [toBytesSigned_ok (by have := ok.id1; omega) (by have := ok.id2; omega)]; simp
  have l3 : (writeByte h.status).out.length = 1 := by
    unfold writeByte; rw [toBytesSigned_ok (by have := ok.status1; omega) (by have := ok.status2; omega)]; simp
  have l4 : (writeInt h.variable_header_size).out.length = 4 := by
    unfold writeInt; rw [toBytesSigned_ok (by have := ok.var1; omega) (by have := ok.var2; omega)]; simp
  simp only [List.length_append, l1, l2, l3, l4, W.emit_out, beDigits_length, ok.marker]

end Verif
