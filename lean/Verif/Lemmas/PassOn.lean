import Verif.Spec.PassOn
import Verif.Model.Nested
import Verif.Model.Setting
import Verif.Lemmas.ProtoSize
import Verif.Lemmas.Rest
import Verif.Lemmas.Messages
import Verif.Lemmas.Header
import Verif.Lemmas.Values
/-! What every reader ensures, whatever the bytes. -/

namespace Verif
open Py StreamInput StreamOutput
open Reader (Ensures)

theorem ens_signed {n : Nat} {r : Reader Int} (e : ∀ bs, r bs = .ok (fromBytesSigned (bs.take n), bs.drop n)) :
    r.Ensures fun i => -(256 ^ n : Int) ≤ 2 * i ∧ 2 * i < 256 ^ n := by
  intro bs a rest h
  rw [e] at h
  cases h
  have h1 := fromBytesSigned_range (bs.take n)
  have h2 : (bs.take n).length ≤ n := by rw [List.length_take]; omega
  have h3 : (256 : Int) ^ (bs.take n).length ≤ 256 ^ n := by
    exact_mod_cast Nat.pow_le_pow_right (by decide) h2
  constructor <;> omega

theorem ens_int : readInt.Ensures fun i => -(2 ^ 31) ≤ i ∧ i < 2 ^ 31 :=
  (ens_signed (n := 4) fun _ => rfl).mono fun i h => by omega

theorem ens_short : readShort.Ensures fun i => -(2 ^ 15) ≤ i ∧ i < 2 ^ 15 :=
  (ens_signed (n := 2) fun _ => rfl).mono fun i h => by omega

theorem Reader.Ensures.true {α : Type} (r : Reader α) : r.Ensures fun _ => True := fun _ _ _ _ => trivial

theorem ens_byteArray : readByteArray.Ensures fun b => b.length ≤ 2 ^ 31 := by
  refine Ensures.bind ens_arraySize fun n hn => Ensures.ite (fun _ => ?_) fun _ => Ensures.pure (by simp)
  exact (ens_bytes hn.1).mono fun b hb => by omega

theorem ens_lenBytes : (readArraySize >>= readBytes).Ensures fun b => b.length ≤ 2 ^ 31 :=
  Ensures.bind ens_arraySize fun _ hn => (ens_bytes hn.1).mono fun b hb => by omega

theorem generics_of {d : Nat} : ∀ {l : List PyVal}, (∀ v ∈ l, GenericOK v ∧ nesting v ≤ d) → GenericsOK l ∧ nestings l ≤ d
  | [], _ => by simp [GenericsOK, nestings]
  | v :: vs, h => by
    have h1 := h v (by simp)
    have h2 := generics_of (l := vs) fun x hx => h x (by simp [hx])
    simp only [GenericsOK, nestings]
    exact ⟨⟨h1.1, h2.1⟩, by omega⟩

/-- Whatever `read_generic_value` returns can be written. -/
theorem ens_generic : ∀ d : Nat, (readGeneric d).Ensures fun v => GenericOK v ∧ nesting v ≤ d
  | 0 => Ensures.throw
  | d + 1 => by
    unfold readGeneric
    refine Ensures.bind' fun t => ?_
    refine Ensures.ite (fun _ => Ensures.pure (by simp [GenericOK, nesting])) fun _ => ?_
    refine Ensures.ite (fun _ => Ensures.bind ens_string fun s hs => Ensures.pure (by simp [GenericOK, nesting, hs])) fun _ => ?_
    refine Ensures.ite (fun _ => Ensures.bind ens_int fun i hi => Ensures.pure
      (by simp only [GenericOK, nesting]; omega)) fun _ => ?_
    refine Ensures.ite (fun _ => Ensures.bind ens_long fun i hi => Ensures.pure
      (by simp only [GenericOK, nesting]; omega)) fun _ => ?_
    refine Ensures.ite (fun _ => Ensures.bind' fun b => Ensures.pure (by simp [GenericOK, nesting])) fun _ => ?_
    refine Ensures.ite (fun _ => Ensures.bind ens_byteArray fun b hb => Ensures.pure
      (by simp only [GenericOK, nesting]; omega)) fun _ => ?_
    refine Ensures.ite (fun _ => Ensures.bind ens_vint fun n hn =>
      Ensures.bind (Ensures.times (ens_generic d) _) fun l hl => Ensures.pure ?_) fun _ => ?_
    · have := generics_of hl.2
      simp only [GenericOK, nesting]
      have e := hl.1
      refine ⟨⟨by omega, this.1⟩, by omega⟩
    refine Ensures.ite (fun _ => Ensures.bind ens_byte fun i hi => Ensures.pure
      (by simp only [GenericOK, nesting]; omega)) fun _ => ?_
    exact Ensures.ite (fun _ => Ensures.bind ens_short fun i hi => Ensures.pure
      (by simp only [GenericOK, nesting]; omega)) fun _ => Ensures.throw

mutual
theorem writeGenericWithin_eq : ∀ (limit : Nat) (v : PyVal), nesting v ≤ limit → writeGenericWithin limit v = writeGeneric v
  | 0, v, h => absurd h (by cases v <;> simp [nesting])
  | limit + 1, .none, _ => by simp [writeGenericWithin, writeGeneric]
  | limit + 1, .bool _, _ => by simp [writeGenericWithin, writeGeneric]
  | limit + 1, .str _, _ => by simp [writeGenericWithin, writeGeneric]
  | limit + 1, .int _, _ => by simp [writeGenericWithin, writeGeneric]
  | limit + 1, .bytes _, _ => by simp [writeGenericWithin, writeGeneric]
  | limit + 1, .other _ _, _ => by simp [writeGenericWithin, writeGeneric]
  | limit + 1, .list l, h => by
    rw [nesting] at h
    rw [writeGenericWithin, writeGeneric, writeGenericListWithin_eq limit l (by omega)]
theorem writeGenericListWithin_eq : ∀ (limit : Nat) (l : List PyVal), nestings l ≤ limit →
    writeGenericListWithin limit l = writeGenericList l
  | _, [], _ => by simp [writeGenericListWithin, writeGenericList]
  | limit, v :: vs, h => by
    rw [nestings] at h
    rw [writeGenericListWithin, writeGenericList, writeGenericWithin_eq limit v (by omega),
      writeGenericListWithin_eq limit vs (by omega)]
end

theorem ens_version : readVersion.Ensures VersionOK := by
  refine Ensures.bind ens_vint fun n hn => Ensures.pure ?_
  rw [version_new_xor]
  exact hn

theorem ens_address : TransportAddress.readFrom.Ensures AddressOK := by
  unfold TransportAddress.readFrom
  refine Ensures.bind' fun b => Ensures.ite (fun _ => Ensures.throw) fun _ => ?_
  refine Ensures.bind ens_int fun i hi => ?_
  have ha : (ipv4 i).Ensures fun a => a < 2 ^ 31 := by
    unfold ipv4
    exact Ensures.ite (fun _ => Ensures.throw) fun _ => Ensures.pure (by omega)
  exact Ensures.bind ha fun a ha => Ensures.bind ens_string fun s hs => Ensures.bind ens_int fun p hp =>
    Ensures.pure ⟨ha, hs, hp.1, hp.2⟩

theorem ens_stringDict : readStringDict.Ensures StrDictOK := ens_dict ens_string

theorem ens_stringArrayDict : readStringArrayDict.Ensures StrsDictOK := ens_dict ens_stringArray

theorem ens_role : DiscoveryNode.readRole.Ensures RoleOK :=
  Ensures.bind ens_string fun _ h1 => Ensures.bind ens_string fun _ h2 => Ensures.bind' fun _ => Ensures.pure ⟨h1, h2⟩

theorem ens_node : DiscoveryNode.readFrom.Ensures NodeOK := by
  unfold DiscoveryNode.readFrom
  refine Ensures.bind ens_string fun _ h1 => Ensures.bind ens_string fun _ h2 => Ensures.bind ens_string fun _ h3 =>
    Ensures.bind ens_string fun _ h4 => Ensures.bind ens_string fun _ h5 => Ensures.bind ens_address fun _ h6 =>
    Ensures.bind ens_stringDict fun _ h7 => Ensures.bind ens_vint fun n hn =>
    Ensures.bind (Ensures.times ens_role _) fun l hl => Ensures.bind ens_version fun _ h8 => Ensures.pure ?_
  refine ⟨h1, h2, h3, h4, h5, h6, h7, ⟨?_, pySet_nodup l, fun r hr => hl.2 r ((mem_pySet l r).1 hr)⟩, h8⟩
  have e : (pySet l).length ≤ 0 + l.length := length_foldl_pySet l []
  have e2 := hl.1
  simp only
  omega

theorem ens_dependency : ExtensionDependency.readFrom.Ensures DependencyOK :=
  Ensures.bind ens_string fun _ h1 => Ensures.bind ens_version fun _ h2 => Ensures.pure ⟨h1, h2⟩

theorem ens_extensionNode : DiscoveryExtensionNode.readFrom.Ensures ExtensionNodeOK := by
  unfold DiscoveryExtensionNode.readFrom
  refine Ensures.bind ens_node fun _ h1 => Ensures.bind ens_version fun _ h2 => Ensures.bind ens_vint fun n hn =>
    Ensures.bind (Ensures.times ens_dependency _) fun l hl => Ensures.pure ⟨h1, h2, ?_, hl.2⟩
  have := hl.1
  simp only
  omega

theorem ens_vlong : readVLong.Ensures fun n => 0 ≤ n ∧ n < 2 ^ 64 := by
  rw [readVLong_steps]
  refine ens_vstep (by decide) (fun j hj => by omega) fun j hj => ?_
  refine ens_vstep hj (fun j hj => by omega) fun j hj => ?_
  refine ens_vstep hj (fun j hj => by omega) fun j hj => ?_
  refine ens_vstep hj (fun j hj => by omega) fun j hj => ?_
  refine ens_vstep hj (fun j hj => by omega) fun j hj => ?_
  refine ens_vstep hj (fun j hj => by omega) fun j hj => ?_
  refine ens_vstep hj (fun j hj => by omega) fun j hj => ?_
  refine ens_vstep hj (fun j hj => by omega) fun j hj => ?_
  refine ens_vstep hj (fun j hj => by omega) fun j hj => ?_
  unfold vlongLast
  refine Ensures.bind' fun b => Ensures.ite (fun _ => Ensures.throw) fun hb => Ensures.pure ?_
  rw [or_shiftLeft (sh := 63) (by omega)]
  have hb : b.toNat = 0 ∨ b.toNat = 1 := by
    by_cases h0 : b = 0
    · subst h0; exact .inl rfl
    · by_cases h1 : b = 1
      · subst h1; exact .inr rfl
      · exact absurd ⟨h0, h1⟩ hb
  rcases hb with h | h <;> rw [h] <;> omega

theorem ens_zlong : readZLong.Ensures fun i => -(2 ^ 63) < i ∧ i < 2 ^ 63 := by
  refine Ensures.bind ens_vlong fun z hz => Ensures.pure ?_
  obtain ⟨n, rfl⟩ := Int.eq_ofNat_of_zero_le hz.1
  have e : ((n : Nat) : Int) >>> 1 = ((n / 2 : Nat) : Int) := by
    show ((n >>> 1 : Nat) : Int) = _
    rw [Nat.shiftRight_eq_div_pow]
  rw [e]
  generalize hq : ((n / 2 : Nat) : Int) = q
  have : 0 ≤ q ∧ q < 2 ^ 63 := by omega
  split <;> omega

theorem ens_timeValue : readTimeValue.Ensures fun v => -(2 ^ 63) < v.duration ∧ v.duration < 2 ^ 63 :=
  Ensures.bind ens_zlong fun _ h => Ensures.bind' fun _ => Ensures.pure h

theorem ens_byteSizeValue : readByteSizeValue.Ensures fun v => -(2 ^ 63) < v.size ∧ v.size < 2 ^ 63 :=
  Ensures.bind ens_zlong fun _ h => Ensures.bind' fun _ => Ensures.pure h

theorem ens_mediaType {old : String} (h : StrOK old) : (ExtensionRestRequest.readMediaType old).Ensures StrOK :=
  Ensures.bind' fun _ => Ensures.ite (fun _ => ens_string) fun _ => Ensures.pure h

theorem ens_restRequest (self : ExtensionRestRequest) (h : StrOK self.media_type) :
    (ExtensionRestRequest.readFrom self).Ensures fun r => RequestOK r ∧
      r.consumed_params = self.consumed_params ∧ r.content_consumed = self.content_consumed := by
  unfold ExtensionRestRequest.readFrom
  exact Ensures.bind ens_taskId fun _ h1 => Ensures.bind' fun _ => Ensures.bind ens_string fun _ h2 =>
    Ensures.bind ens_string fun _ h3 => Ensures.bind ens_stringDict fun _ h4 => Ensures.bind ens_stringArrayDict fun _ h5 =>
    Ensures.bind (ens_mediaType h) fun _ h6 => Ensures.bind ens_arraySize fun n hn => Ensures.bind (ens_bytes hn.1) fun b hb =>
    Ensures.bind ens_string fun _ h7 => Ensures.bind' fun _ =>
    Ensures.pure ⟨⟨h1, by simp, h2, h3, h4, h5, h6, by simp only; omega, h7, by simp⟩, rfl, rfl⟩

theorem pySet_ok {a : List String} (ha : StrsOK a) : StrsOK (pySet a) :=
  ⟨by
    have : (pySet a).length ≤ 0 + a.length := length_foldl_pySet a []
    have := ha.1; omega, fun s hs => ha.2 s ((mem_pySet a s).1 hs)⟩

theorem ens_restResponse : ExtensionRestResponse.readFrom.Ensures ResponseOK := by
  unfold ExtensionRestResponse.readFrom
  exact Ensures.bind' fun _ => Ensures.bind ens_arraySize fun n hn => Ensures.bind (ens_bytes hn.1) fun b hb =>
    Ensures.bind ens_string fun _ h2 => Ensures.bind ens_stringArrayDict fun _ h3 => Ensures.bind ens_stringArray fun a h4 =>
    Ensures.bind' fun _ => Ensures.pure ⟨by simp, by simp only; omega, h2, h3, pySet_ok h4, pySet_nodup a⟩

theorem ens_execute : RestExecuteOnExtensionResponse.readFrom.Ensures ExecuteOK := by
  unfold RestExecuteOnExtensionResponse.readFrom
  exact Ensures.bind' fun _ => Ensures.bind ens_string fun _ h2 => Ensures.bind ens_arraySize fun n hn =>
    Ensures.bind (ens_bytes hn.1) fun b hb =>
    Ensures.bind ens_stringArrayDict fun _ h3 => Ensures.bind ens_stringArray fun a h4 =>
    Ensures.bind' fun _ => Ensures.pure ⟨by simp, by simp only; omega, h2, h3, h4⟩

/-- Two octets at least: then the whole header can be written again. -/
theorem header_ok {bs rest : Bytes} {h : TcpHeader} (hl : 2 ≤ bs.length) (hr : TcpHeader.readFrom bs = .ok (h, rest)) :
    ∃ v, HeaderOK h v := by
  unfold TcpHeader.readFrom at hr
  obtain ⟨m, r1, e1, hr⟩ := Reader.bind_eq_ok.1 hr
  obtain ⟨size, r2, e2, hr⟩ := Reader.bind_eq_ok.1 hr
  obtain ⟨id, r3, e3, hr⟩ := Reader.bind_eq_ok.1 hr
  obtain ⟨st, r4, e4, hr⟩ := Reader.bind_eq_ok.1 hr
  obtain ⟨v, r5, e5, hr⟩ := Reader.bind_eq_ok.1 hr
  obtain ⟨vs, r6, e6, hr⟩ := Reader.bind_eq_ok.1 hr
  cases hr
  have k2 := ens_int _ _ _ e2
  have k3 := ens_long _ _ _ e3
  have k4 := ens_byte _ _ _ e4
  have k6 := ens_int _ _ _ e6
  have k5 := ens_bytes (n := 4) (by decide) _ _ _ e5
  have k1 : m = bs.take 2 := by
    have : (Except.ok (bs.take 2, bs.drop 2) : Except Err (Bytes × Bytes)) = .ok (m, r1) := e1
    cases this; rfl
  have kv := natOfBE_lt v
  have kp : 256 ^ v.length ≤ 256 ^ 4 := Nat.pow_le_pow_right (by decide) (by omega)
  refine ⟨Version.fromBytes v, ⟨?_, k2.1, k2.2, k3.1, k3.2, k4.1, k4.2, rfl, ?_, ?_, k6.1, k6.2⟩⟩
  · simp only; rw [k1, List.length_take]; omega
  · simp [Version.fromBytes, fromBytesUnsigned]
  · simp only [Version.fromBytes, fromBytesUnsigned]; omega

/-- The dict that is being filled stays writable, entry by entry, whether the reading succeeds or raises half-way. -/
theorem settings_readLoop_ok (depth n : Nat) (d : Dict String PyVal) (bs : Bytes) (hw : d.WF)
    (h : ∀ kv ∈ d, StrOK kv.1 ∧ GenericOK kv.2 ∧ nesting kv.2 ≤ depth) :
    (Settings.readLoop depth n d bs).1.WF ∧
    (∀ kv ∈ (Settings.readLoop depth n d bs).1, StrOK kv.1 ∧ GenericOK kv.2 ∧ nesting kv.2 ≤ depth) ∧
    (Settings.readLoop depth n d bs).1.length ≤ d.length + n := by
  induction n generalizing d bs with
  | zero => exact ⟨hw, h, by simp [Settings.readLoop]⟩
  | succ n ih =>
    unfold Settings.readLoop
    split
    · exact ⟨hw, h, by simp only; omega⟩
    · next key value rest e =>
      obtain ⟨k, r1, e1, e2⟩ := Reader.bind_eq_ok.1 e
      obtain ⟨v, r2, e3, e4⟩ := Reader.bind_eq_ok.1 e2
      cases e4
      have hk := ens_string _ _ _ e1
      have hv := ens_generic depth _ _ _ e3
      have := ih (d.set key value) rest (hw.set key value) (fun kv hkv => by
        rcases mem_set hkv with hkv | rfl
        · exact h kv hkv
        · exact ⟨hk, hv⟩)
      refine ⟨this.1, this.2.1, ?_⟩
      have e5 := length_set_le d key value
      have e6 := this.2.2
      omega

end Verif
