import Verif.Lemmas.ProtoWrite
import Verif.Lemmas.Ensures
/-! What is read is not longer when it is written again. -/

namespace Verif
open Py StreamInput StreamOutput Spec

namespace Pb

theorem varintValue_lt (bs : Bytes) : varintValue bs < 128 ^ bs.length := by
  induction bs with
  | nil => simp [varintValue]
  | cons b bs ih =>
    simp only [varintValue, List.length_cons, pow_succ]
    omega

theorem lt_pow_varint (n : Nat) : n < 128 ^ (varint n).length := by
  obtain ⟨k, hk⟩ : ∃ k, n < 128 ^ (k + 1) := ⟨n, by
    have : n < 128 ^ n := Nat.lt_pow_self (by decide)
    rw [pow_succ]; omega⟩
  have h := (varint_pb_aux k n hk).2.2.1
  have := varintValue_lt (varint n)
  rwa [h] at this

theorem varint_pos (n : Nat) : 0 < (varint n).length := by
  rw [varint]; split <;> simp

theorem varint_length_of_lt {n k : Nat} (hk : 0 < k) (h : n < 128 ^ k) : (varint n).length ≤ k := by
  obtain ⟨j, rfl⟩ : ∃ j, k = j + 1 := ⟨k - 1, by omega⟩
  exact (varint_pb_aux j n h).2.1

/-- The shortest form of a varint is what the extension writes. -/
theorem varint_min {limit n : Nat} {bs : Bytes} (h : PbVarint limit bs n) : (varint n).length ≤ bs.length :=
  varint_length_of_lt (List.length_pos_iff.2 h.nonempty) (h.value ▸ varintValue_lt bs)

theorem varint_mono {a b : Nat} (h : a ≤ b) : (varint a).length ≤ (varint b).length :=
  varint_length_of_lt (varint_pos b) (lt_of_le_of_lt h (lt_pow_varint b))

theorem varint_add (a b : Nat) : (varint (a + b)).length ≤ (varint a).length + (varint b).length := by
  have ha := lt_pow_varint a
  have hb := lt_pow_varint b
  have pa := varint_pos a
  have pb := varint_pos b
  apply varint_length_of_lt (by omega)
  rw [pow_add]
  have h1 : 128 ≤ 128 ^ (varint a).length := Nat.le_self_pow (by omega) 128
  have h2 : 128 ≤ 128 ^ (varint b).length := Nat.le_self_pow (by omega) 128
  generalize 128 ^ (varint a).length = x at *
  generalize 128 ^ (varint b).length = y at *
  have e1 : 128 * y ≤ x * y := Nat.mul_le_mul_right y h1
  have e2 : x * 128 ≤ x * y := Nat.mul_le_mul_left x h2
  omega

theorem lenField_length (num : Nat) (b : Bytes) :
    (lenField num b).length = (varint (num * 8 + 2)).length + (varint b.length).length + b.length := by
  simp [lenField]; omega

theorem part_length {depth num : Nat} {b raw : Bytes} (h : PbMessage depth [⟨num, .bytes b, raw⟩] raw) :
    (lenField num b).length ≤ raw.length := by
  generalize hf : [(⟨num, .bytes b, raw⟩ : PbPart)] = fs at h
  generalize hb : raw = bs at h
  cases h with
  | nil => cases hf
  | group => simp at hf
  | plain hp _ =>
    simp only [List.cons.injEq, PbPart.mk.injEq] at hf
    obtain ⟨⟨rfl, rfl, rfl⟩, -⟩ := hf
    clear hb
    cases hp with
    | bytes h1 h2 h3 =>
      have := varint_min h1.2.2
      have := varint_min h2
      rw [lenField_length]
      simp only [List.length_append]
      omega

end Pb

namespace ExtensionIdentity

theorem step_length {depth : Nat} {m r : ExtensionIdentity} {f : PbPart} (hf : PbMessage depth [f] f.raw)
    (h : step m (Pb.toField f) = some r) : r.serialize.length ≤ m.serialize.length + f.raw.length := by
  cases hk : identityKnows f with
  | false =>
    rw [step_other m hk, Option.some.injEq] at h
    subst h
    simp only [serialize, List.length_append]
    omega
  | true =>
    obtain ⟨b, raw, rfl⟩ := known_bytes hk
    rw [step_name] at h
    cases hd : decodeUtf8? b with
    | none => rw [hd] at h; cases h
    | some s =>
      rw [hd, Option.map_some, Option.some.injEq] at h
      subst h
      rw [decodeUtf8_eq_some] at hd
      subst hd
      have := Pb.part_length hf
      simp only [serialize, List.length_append]
      split <;> split <;> simp <;> omega

theorem fold_length {depth : Nat} {gs : List PbPart} : ∀ {bs : Bytes}, PbMessage depth gs bs → ∀ {m r : ExtensionIdentity},
    (gs.map Pb.toField).foldl (fun acc f => acc.bind (fun m => step m f)) (some m) = some r →
    r.serialize.length ≤ m.serialize.length + bs.length := by
  induction gs with
  | nil => intro bs _ m r h; cases h; omega
  | cons f gs ih =>
    intro bs hm m r h
    obtain ⟨rest, rfl, -, h1, h2⟩ := Pb.message_cons hm
    rw [List.map_cons, List.foldl_cons, Option.bind_some] at h
    cases hs : step m (Pb.toField f) with
    | none => rw [hs, foldl_bind_none] at h; cases h
    | some m1 =>
      rw [hs] at h
      have a := ih h2 h
      have b := step_length h1 hs
      rw [List.length_append]
      omega

theorem merge_length {m r : ExtensionIdentity} {bs : Bytes} (h : m.merge bs = some r) :
    r.serialize.length ≤ m.serialize.length + bs.length := by
  unfold merge at h
  cases hf : Pb.fields 99 bs with
  | none => rw [hf] at h; cases h
  | some l =>
    rw [hf] at h
    obtain ⟨gs, hm, rfl⟩ := (Pb.fields_iff _ _ _).1 hf
    exact fold_length hm h

end ExtensionIdentity

open ExtensionIdentity (known_bytes)

theorem identityBytes_merge {depth : Nat} {i : Option ExtensionIdentity} {u : ExtensionIdentity} {b raw : Bytes}
    (hf : PbMessage depth [⟨1, .bytes b, raw⟩] raw) (h : (i.getD {}).merge b = some u) :
    (identityBytes (some u)).length ≤ (identityBytes i).length + raw.length := by
  have h1 := ExtensionIdentity.merge_length h
  have h2 := Pb.part_length hf
  have h3 := Pb.varint_mono h1
  rw [Pb.lenField_length] at h2
  cases i with
  | none =>
    have e : (ExtensionIdentity.serialize ((none : Option ExtensionIdentity).getD {})).length = 0 := by decide +kernel
    rw [e, Nat.zero_add] at h1 h3
    simp only [identityBytes]
    rw [Pb.lenField_length]
    simp only [List.length_nil]
    omega
  | some v =>
    simp only [Option.getD_some] at h1 h3
    have h4 := Pb.varint_add v.serialize.length b.length
    simp only [identityBytes]
    rw [Pb.lenField_length, Pb.lenField_length]
    omega

namespace RegisterRestActions

theorem step_length {depth : Nat} {m r : RegisterRestActions} {f : PbPart} (hf : PbMessage depth [f] f.raw)
    (h : step m (Pb.toField f) = some r) : r.serialize.length ≤ m.serialize.length + f.raw.length := by
  cases hk : actionsKnow f with
  | false =>
    rw [step_other m hk, Option.some.injEq] at h
    subst h
    simp only [serialize_eq, List.length_append]
    omega
  | true =>
    have h3 : (f.isBytes 1 = true ∨ f.isBytes 2 = true) ∨ f.isBytes 3 = true := by simpa [actionsKnow] using hk
    rcases h3 with (h3 | h3) | h3
    · obtain ⟨b, raw, rfl⟩ := known_bytes h3
      rw [step_identity] at h
      cases hm : (m.identity.getD {}).merge b with
      | none => rw [hm] at h; cases h
      | some u =>
        rw [hm, Option.map_some, Option.some.injEq] at h
        subst h
        have := identityBytes_merge hf hm
        simp only [serialize_eq, List.length_append]
        omega
    · obtain ⟨b, raw, rfl⟩ := known_bytes h3
      rw [step_action] at h
      cases hd : decodeUtf8? b with
      | none => rw [hd] at h; cases h
      | some s =>
        rw [hd, Option.map_some, Option.some.injEq] at h
        subst h
        rw [decodeUtf8_eq_some] at hd
        subst hd
        have := Pb.part_length hf
        simp only [serialize_eq, List.length_append, List.flatMap_append, List.flatMap_cons, List.flatMap_nil,
          List.length_nil]
        omega
    · obtain ⟨b, raw, rfl⟩ := known_bytes h3
      rw [step_deprecated] at h
      cases hd : decodeUtf8? b with
      | none => rw [hd] at h; cases h
      | some s =>
        rw [hd, Option.map_some, Option.some.injEq] at h
        subst h
        rw [decodeUtf8_eq_some] at hd
        subst hd
        have := Pb.part_length hf
        simp only [serialize_eq, List.length_append, List.flatMap_append, List.flatMap_cons, List.flatMap_nil,
          List.length_nil]
        omega

theorem fold_length {depth : Nat} {gs : List PbPart} : ∀ {bs : Bytes}, PbMessage depth gs bs → ∀ {m r : RegisterRestActions},
    (gs.map Pb.toField).foldl (fun acc f => acc.bind (fun m => step m f)) (some m) = some r →
    r.serialize.length ≤ m.serialize.length + bs.length := by
  induction gs with
  | nil => intro bs _ m r h; cases h; omega
  | cons f gs ih =>
    intro bs hm m r h
    obtain ⟨rest, rfl, -, h1, h2⟩ := Pb.message_cons hm
    rw [List.map_cons, List.foldl_cons, Option.bind_some] at h
    cases hs : step m (Pb.toField f) with
    | none => rw [hs, foldl_bind_none] at h; cases h
    | some m1 =>
      rw [hs] at h
      have a := ih h2 h
      have b := step_length h1 hs
      rw [List.length_append]
      omega

theorem parse_length {bs : Bytes} {m : RegisterRestActions} (h : parse bs = some m) : m.serialize.length ≤ bs.length := by
  unfold parse at h
  cases hf : Pb.fields 100 bs with
  | none => rw [hf] at h; cases h
  | some l =>
    rw [hf] at h
    obtain ⟨gs, hm, rfl⟩ := (Pb.fields_iff _ _ _).1 hf
    have := fold_length hm h
    have e : (serialize {}).length = 0 := by decide +kernel
    omega

end RegisterRestActions

namespace ExtensionRequest

/-- The length of the message but for the request type. -/
def bulk (m : ExtensionRequest) : Nat := (identityBytes m.identity).length + m.unknown.length

theorem length_bulk (m : ExtensionRequest) : m.serialize.length ≤ m.bulk + 11 := by
  rw [serialize_eq]
  unfold bulk
  have h : (Pb.varint (enumVarint m.requestType)).length ≤ 10 :=
    Pb.varint_length_of_lt (by decide) (by unfold enumVarint; omega)
  have e : (Pb.varint (2 * 8)).length = 1 := by decide +kernel
  simp only [List.length_append]
  split
  · simp only [List.length_nil]; omega
  · simp only [Pb.intField, List.length_append]; omega

theorem step_length {depth : Nat} {m r : ExtensionRequest} {f : PbPart} (hf : PbMessage depth [f] f.raw)
    (h : step m (Pb.toField f) = some r) : r.bulk ≤ m.bulk + f.raw.length := by
  cases hk : requestKnows f with
  | false =>
    rw [step_other m hk, Option.some.injEq] at h
    subst h
    simp only [bulk, List.length_append]
    omega
  | true =>
    have h3 : f.isBytes 1 = true ∨ f.isVarint 2 = true := by simpa [requestKnows] using hk
    rcases h3 with h3 | h3
    · obtain ⟨b, raw, rfl⟩ := known_bytes h3
      rw [step_identity] at h
      cases hm : (m.identity.getD {}).merge b with
      | none => rw [hm] at h; cases h
      | some u =>
        rw [hm, Option.map_some, Option.some.injEq] at h
        subst h
        have := identityBytes_merge hf hm
        simp only [bulk]
        omega
    · obtain ⟨n, raw, rfl⟩ := known_varint h3
      rw [step_type, Option.some.injEq] at h
      subst h
      simp only [bulk]
      omega

theorem fold_length {depth : Nat} {gs : List PbPart} : ∀ {bs : Bytes}, PbMessage depth gs bs → ∀ {m r : ExtensionRequest},
    (gs.map Pb.toField).foldl (fun acc f => acc.bind (fun m => step m f)) (some m) = some r →
    r.bulk ≤ m.bulk + bs.length := by
  induction gs with
  | nil => intro bs _ m r h; cases h; omega
  | cons f gs ih =>
    intro bs hm m r h
    obtain ⟨rest, rfl, -, h1, h2⟩ := Pb.message_cons hm
    rw [List.map_cons, List.foldl_cons, Option.bind_some] at h
    cases hs : step m (Pb.toField f) with
    | none => rw [hs, foldl_bind_none] at h; cases h
    | some m1 =>
      rw [hs] at h
      have a := ih h2 h
      have b := step_length h1 hs
      rw [List.length_append]
      omega

theorem parse_length {bs : Bytes} {m : ExtensionRequest} (h : parse bs = some m) : m.serialize.length ≤ bs.length + 11 := by
  unfold parse at h
  cases hf : Pb.fields 100 bs with
  | none => rw [hf] at h; cases h
  | some l =>
    rw [hf] at h
    obtain ⟨gs, hm, rfl⟩ := (Pb.fields_iff _ _ _).1 hf
    have := fold_length hm h
    have e : bulk {} = 0 := by decide +kernel
    have := length_bulk m
    omega

end ExtensionRequest

theorem ens_long : readLong.Ensures fun i => -(2 ^ 63) ≤ i ∧ i < 2 ^ 63 := by
  intro bs a rest h
  have e : readLong bs = .ok (fromBytesSigned (bs.take 8), bs.drop 8) := rfl
  rw [e] at h
  cases h
  have h1 := fromBytesSigned_range (bs.take 8)
  have h2 : (bs.take 8).length ≤ 8 := by rw [List.length_take]; omega
  have h3 : (256 : Int) ^ (bs.take 8).length ≤ 256 ^ 8 := by
    exact_mod_cast Nat.pow_le_pow_right (by decide) h2
  constructor <;> omega

theorem ens_taskId : TaskId.readFrom.Ensures TaskIdOK := by
  unfold TaskId.readFrom
  refine Reader.Ensures.bind ens_string fun s hs => Reader.Ensures.ite (fun h => ?_) (fun h => ?_)
  · exact Reader.Ensures.bind ens_long fun i hi => Reader.Ensures.pure ⟨hs, h, hi⟩
  · exact Reader.Ensures.pure ⟨hs, by simpa using h⟩

end Verif
