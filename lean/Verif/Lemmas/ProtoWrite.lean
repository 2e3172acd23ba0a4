import Verif.Lemmas.Protobuf
import Verif.Lemmas.Messages
import Verif.Spec.Unknown
/-! The protobuf messages as they are written: well-formed, and read back. -/

namespace Verif
open Py StreamInput StreamOutput Spec

namespace Pb

theorem varint_pb_aux (fuel : Nat) : ∀ n, n < 128 ^ (fuel + 1) →
    (varint n ≠ [] ∧ (varint n).length ≤ fuel + 1 ∧ Spec.varintValue (varint n) = n ∧
     ∀ k (h : k < (varint n).length), 128 ≤ ((varint n)[k]).toNat ↔ k + 1 < (varint n).length) := by
  induction fuel with
  | zero =>
    intro n h
    rw [varint, if_pos (by omega)]
    have e : (UInt8.ofNat n).toNat = n := by simp only [UInt8.toNat_ofNat']; omega
    refine ⟨by simp, by simp, by simp [Spec.varintValue, e]; omega, ?_⟩
    intro k hk
    simp only [List.length_singleton] at hk
    obtain rfl : k = 0 := by omega
    simp [e]; omega
  | succ f ih =>
    intro n h
    by_cases hn : n < 128
    · rw [varint, if_pos hn]
      have e : (UInt8.ofNat n).toNat = n := by simp only [UInt8.toNat_ofNat']; omega
      refine ⟨by simp, by simp, by simp [Spec.varintValue, e]; omega, ?_⟩
      intro k hk
      simp only [List.length_singleton] at hk
      obtain rfl : k = 0 := by omega
      simp [e]; omega
    · rw [varint, if_neg hn]
      have e : (UInt8.ofNat (n % 128 + 128)).toNat = n % 128 + 128 := by
        simp only [UInt8.toNat_ofNat']; omega
      have hk : n / 128 < 128 ^ (f + 1) := by rw [pow_succ] at h; omega
      obtain ⟨i1, i2, i3, i4⟩ := ih _ hk
      refine ⟨by simp, by simpa using i2, ?_, ?_⟩
      · simp only [Spec.varintValue, e, i3]; omega
      · intro k hk
        have hpos : 0 < (varint (n / 128)).length := List.length_pos_iff.2 i1
        cases k with
        | zero => simp only [List.getElem_cons_zero, e, List.length_cons]; omega
        | succ j =>
          simp only [List.length_cons] at hk
          have := i4 j (by omega)
          simp only [List.getElem_cons_succ, List.length_cons]
          omega

theorem varint_pb {limit n : Nat} (h0 : 0 < limit) (h : n < 128 ^ limit) : PbVarint limit (varint n) n := by
  obtain ⟨k, rfl⟩ : ∃ k, limit = k + 1 := ⟨limit - 1, by omega⟩
  obtain ⟨h1, h2, h3, h4⟩ := varint_pb_aux k n h
  exact ⟨h1, h2, h3, h4⟩

theorem tag_pb {num wire : Nat} (h0 : 0 < num) (h1 : num < 2 ^ 29) (hw : wire < 8) :
    PbTag num wire (varint (num * 8 + wire)) :=
  ⟨h0, h1, varint_pb (by decide) (by omega)⟩

/-- A length-delimited field as it is written. -/
def lenPart (num : Nat) (b : Bytes) : PbPart := ⟨num, .bytes b, lenField num b⟩

theorem lenField_pb {num depth : Nat} {b : Bytes} (h0 : 0 < num) (h1 : num < 2 ^ 29) (h2 : b.length < 2 ^ 31) :
    PbMessage depth [lenPart num b] (lenField num b) := by
  have : PbPlain num (.bytes b) (lenField num b) := by
    unfold lenField
    rw [List.append_assoc]
    exact .bytes (tag_pb h0 h1 (by decide)) (varint_pb (by decide) (by omega)) h2
  have := PbMessage.plain (depth := depth) this .nil
  rwa [List.append_nil] at this

theorem length_lenField (num : Nat) (b : Bytes) : b.length ≤ (lenField num b).length := by
  simp [lenField]; omega

theorem flatMap_pb {num depth : Nat} (h0 : 0 < num) (h1 : num < 2 ^ 29) (l : List String)
    (h : (l.flatMap fun s => lenField num (utf8 s)).length < 2 ^ 31) :
    PbMessage depth (l.map fun s => lenPart num (utf8 s)) (l.flatMap fun s => lenField num (utf8 s)) := by
  induction l with
  | nil => exact .nil
  | cons s l ih =>
    simp only [List.flatMap_cons, List.length_append] at h
    have := length_lenField num (utf8 s)
    simp only [List.flatMap_cons, List.map_cons]
    exact message_append (lenField_pb h0 h1 (by omega)) (ih (by omega))

theorem payloads_lenPart (n num : Nat) (b : Bytes) : payloads n [lenPart num b] = if num = n then [b] else [] := by
  unfold payloads lenPart
  by_cases h : num = n <;> simp [h]

theorem payloads_lenParts (n num : Nat) (l : List String) :
    payloads n (l.map fun s => lenPart num (utf8 s)) = if num = n then l.map utf8 else [] := by
  induction l with
  | nil => simp [payloads]
  | cons s l ih =>
    rw [List.map_cons, payloads_cons, payloads_lenPart, ih]
    by_cases h : num = n <;> simp [h]

theorem varints_lenParts (n num : Nat) (l : List String) :
    varints n (l.map fun s => lenPart num (utf8 s)) = [] := by
  induction l with
  | nil => rfl
  | cons s l ih => exact ih

/-- A varint field as it is written. -/
def intPart (num n : Nat) : PbPart := ⟨num, .varint n, intField num n⟩

theorem intField_pb {num depth n : Nat} (h0 : 0 < num) (h1 : num < 2 ^ 29) (h2 : n < 2 ^ 64) :
    PbMessage depth [intPart num n] (intField num n) := by
  have : PbPlain num (.varint n) (intField num n) := by
    have := PbPlain.varint (n := n) (tag_pb h0 h1 (show 0 < 8 by decide)) (varint_pb (n := n) (show 0 < 10 by decide) (by omega))
    rwa [Nat.mod_eq_of_lt h2] at this
  have := PbMessage.plain (depth := depth) this .nil
  rwa [List.append_nil] at this

end Pb

theorem foreign_nil (depth : Nat) (known : PbPart → Bool) : Foreign depth known [] := ⟨[], .nil, by simp⟩

/-- What parsing leaves as unknown is foreign. -/
theorem foreign_foreign {depth : Nat} {fs : List PbPart} {bs : Bytes} (h : PbMessage depth fs bs) (known : PbPart → Bool) :
    Foreign depth known (foreign known fs) :=
  ⟨_, Pb.message_filter _ h, fun f hf => by simpa using (List.mem_filter.1 hf).2⟩

theorem foreign_join {depth : Nat} {known : PbPart → Bool} {a b : Bytes} (ha : Foreign depth known a)
    (hb : Foreign depth known b) : Foreign depth known (a ++ b) := by
  obtain ⟨fs, h1, h2⟩ := ha
  obtain ⟨gs, h3, h4⟩ := hb
  exact ⟨fs ++ gs, Pb.message_append h1 h3, fun f hf => (List.mem_append.1 hf).elim (h2 f) (h4 f)⟩

namespace ExtensionIdentity

/-- The name as a list of fields. -/
def nameParts (u : String) : List PbPart := if u = "" then [] else [Pb.lenPart 1 (utf8 u)]

theorem name_message {u : ExtensionIdentity} {gs : List PbPart} (hg : PbMessage 99 gs u.unknown)
    (h : u.serialize.length < 2 ^ 31) : PbMessage 99 (nameParts u.uniqueId ++ gs) u.serialize := by
  unfold serialize at h ⊢
  unfold nameParts
  refine Pb.message_append ?_ hg
  split
  · exact .nil
  · next hne =>
    rw [if_neg hne, List.length_append] at h
    have := Pb.length_lenField 1 (utf8 u.uniqueId)
    exact Pb.lenField_pb (by decide) (by decide) (by omega)

theorem name_payloads {u : String} {gs : List PbPart} (h : ∀ f ∈ gs, identityKnows f = false) :
    payloads 1 (nameParts u ++ gs) = (if u = "" then [] else [u]).map utf8 := by
  rw [payloads_append, payloads_foreign (fs := gs) h]
  unfold nameParts
  split
  · rfl
  · rw [Pb.payloads_lenPart]; rfl

theorem name_foreign {u : String} {gs : List PbPart} : foreign identityKnows (nameParts u ++ gs) = foreign identityKnows gs := by
  rw [foreign_append, foreign_all (fs := nameParts u), List.nil_append]
  unfold nameParts
  split <;> simp [identityKnows, PbPart.isBytes, Pb.lenPart]

end ExtensionIdentity

/-- The identity as a list of fields of its message. -/
def identityParts : Option ExtensionIdentity → List PbPart
  | some u => [Pb.lenPart 1 u.serialize]
  | none => []

/-- The bytes of the identity field. -/
def identityBytes : Option ExtensionIdentity → Bytes
  | some u => Pb.lenField 1 u.serialize
  | none => []

theorem identityParts_message {depth : Nat} {i : Option ExtensionIdentity} (h : (identityBytes i).length < 2 ^ 31) :
    PbMessage depth (identityParts i) (identityBytes i) := by
  cases i with
  | none => exact .nil
  | some u =>
    have := Pb.length_lenField 1 u.serialize
    simp only [identityBytes] at h
    exact Pb.lenField_pb (by decide) (by decide) (by omega)

/-- The parts of the identity itself, by which it comes back. -/
theorem identity_read {i : Option ExtensionIdentity} (h : (identityBytes i).length < 2 ^ 31)
    (hf : ∀ u, i = some u → Foreign 99 identityKnows u.unknown) :
    ∃ (ids : List (List PbPart)) (names : List String), List.Forall₂ (PbMessage 99) ids (payloads 1 (identityParts i)) ∧
      ids.flatMap (payloads 1) = names.map utf8 ∧ identityAfter none ids names = i := by
  cases i with
  | none => exact ⟨[], [], .nil, rfl, rfl⟩
  | some u =>
    obtain ⟨gs, h1, h2⟩ := hf u rfl
    have hl := Pb.length_lenField 1 u.serialize
    simp only [identityBytes] at h
    refine ⟨[ExtensionIdentity.nameParts u.uniqueId ++ gs], if u.uniqueId = "" then [] else [u.uniqueId], ?_, ?_, ?_⟩
    · simp only [identityParts]
      rw [Pb.payloads_lenPart, if_pos rfl]
      exact .cons (ExtensionIdentity.name_message h1 (by omega)) .nil
    · rw [List.flatMap_cons, List.flatMap_nil, List.append_nil, ExtensionIdentity.name_payloads h2]
    · unfold identityAfter
      rw [if_neg (List.cons_ne_nil _ _), List.flatMap_cons, List.flatMap_nil, List.append_nil, ExtensionIdentity.name_foreign,
        foreign_none h1 h2]
      obtain ⟨uid, unk⟩ := u
      by_cases e : uid = "" <;> simp [e]

theorem identityAfter_foreign {ids : List (List PbPart)} {ps : List Bytes} {names : List String}
    (h : List.Forall₂ (PbMessage 99) ids ps) :
    ∀ u, identityAfter none ids names = some u → Foreign 99 identityKnows u.unknown := by
  intro u hu
  unfold identityAfter at hu
  split at hu
  · cases hu
  · cases hu
    show Foreign 99 identityKnows ([] ++ _)
    rw [List.nil_append]
    clear * - h
    induction h with
    | nil => exact foreign_nil _ _
    | cons h1 _ ih =>
      rw [List.flatMap_cons]
      exact foreign_join (foreign_foreign h1 _) ih

namespace RegisterRestActions

theorem serialize_eq (m : RegisterRestActions) : m.serialize = identityBytes m.identity ++
    ((m.restActions.flatMap fun s => Pb.lenField 2 (utf8 s)) ++
    ((m.deprecatedRestActions.flatMap fun s => Pb.lenField 3 (utf8 s)) ++ m.unknown)) := by
  unfold serialize
  cases m.identity <;> simp [identityBytes]

/-- The fields of a message as they are written. -/
def parts (m : RegisterRestActions) (gs : List PbPart) : List PbPart :=
  identityParts m.identity ++ ((m.restActions.map fun s => Pb.lenPart 2 (utf8 s)) ++
    ((m.deprecatedRestActions.map fun s => Pb.lenPart 3 (utf8 s)) ++ gs))

theorem parts_message {m : RegisterRestActions} {gs : List PbPart} (hg : PbMessage 100 gs m.unknown)
    (h : m.serialize.length < 2 ^ 31) : PbMessage 100 (m.parts gs) m.serialize := by
  rw [serialize_eq] at h ⊢
  simp only [List.length_append] at h
  unfold parts
  exact Pb.message_append (identityParts_message (by omega))
    (Pb.message_append (Pb.flatMap_pb (by decide) (by decide) _ (by omega))
      (Pb.message_append (Pb.flatMap_pb (by decide) (by decide) _ (by omega)) hg))

theorem parse_serialize (m : RegisterRestActions) (h : m.serialize.length < 2 ^ 31)
    (hu : Foreign 100 actionsKnow m.unknown) (hi : ∀ u, m.identity = some u → Foreign 99 identityKnows u.unknown) :
    parse m.serialize = some m := by
  obtain ⟨gs, h1, h2⟩ := hu
  have hb : (identityBytes m.identity).length < 2 ^ 31 := by
    rw [serialize_eq] at h
    simp only [List.length_append] at h
    omega
  obtain ⟨ids, names, h3, h4, h5⟩ := identity_read hb hi
  have hk : ∀ f ∈ gs, (f.isBytes 1 = false ∧ f.isBytes 2 = false) ∧ f.isBytes 3 = false := fun f hf => by
    simpa [actionsKnow] using h2 f hf
  have p1 : payloads 1 (m.parts gs) = payloads 1 (identityParts m.identity) := by
    unfold parts
    rw [payloads_append, payloads_append, payloads_append, Pb.payloads_lenParts, Pb.payloads_lenParts,
      payloads_foreign (fun f hf => (hk f hf).1.1)]
    simp
  have p0 : ∀ n, 1 < n → payloads n (identityParts m.identity) = [] := by
    intro n hn
    cases m.identity with
    | none => rfl
    | some u => simp only [identityParts]; rw [Pb.payloads_lenPart, if_neg (by omega)]
  have p2 : payloads 2 (m.parts gs) = m.restActions.map utf8 := by
    unfold parts
    rw [payloads_append, payloads_append, payloads_append, Pb.payloads_lenParts, Pb.payloads_lenParts,
      payloads_foreign (fun f hf => (hk f hf).1.2), p0 2 (by decide)]
    simp
  have p3 : payloads 3 (m.parts gs) = m.deprecatedRestActions.map utf8 := by
    unfold parts
    rw [payloads_append, payloads_append, payloads_append, Pb.payloads_lenParts, Pb.payloads_lenParts,
      payloads_foreign (fun f hf => (hk f hf).2), p0 3 (by decide)]
    simp
  have pf : foreign actionsKnow (m.parts gs) = m.unknown := by
    unfold parts
    rw [foreign_append, foreign_append, foreign_append, foreign_none h1 h2, foreign_all, foreign_all, foreign_all]
    · simp
    · intro f hf
      obtain ⟨s, -, rfl⟩ := List.mem_map.1 hf
      rfl
    · intro f hf
      obtain ⟨s, -, rfl⟩ := List.mem_map.1 hf
      rfl
    · cases m.identity <;> simp [identityParts, actionsKnow, PbPart.isBytes, Pb.lenPart]
  rw [parse_iff]
  exact ⟨m.parts gs, ids, names, m.restActions, m.deprecatedRestActions, parts_message h1 h, p1 ▸ h3, h4, p2, p3, by rw [h5, pf]⟩

/-- What is parsed has foreign unknown bytes, so it is parsed again from what it is written as. -/
theorem parse_foreign {bs : Bytes} {m : RegisterRestActions} (h : parse bs = some m) :
    Foreign 100 actionsKnow m.unknown ∧ ∀ u, m.identity = some u → Foreign 99 identityKnows u.unknown := by
  obtain ⟨fs, ids, names, actions, deprecated, h1, h2, -, -, -, rfl⟩ := (parse_iff _ _).1 h
  exact ⟨foreign_foreign h1 _, identityAfter_foreign h2⟩

end RegisterRestActions

namespace ExtensionRequest

theorem serialize_eq (m : ExtensionRequest) : m.serialize = identityBytes m.identity ++
    ((if m.requestType = 0 then [] else Pb.intField 2 (enumVarint m.requestType)) ++ m.unknown) := by
  unfold serialize
  cases m.identity <;> simp [identityBytes]

/-- The request type as a list of fields. -/
def typeParts (i : Int) : List PbPart := if i = 0 then [] else [Pb.intPart 2 (enumVarint i)]

/-- The fields of a message as they are written. -/
def parts (m : ExtensionRequest) (gs : List PbPart) : List PbPart :=
  identityParts m.identity ++ (typeParts m.requestType ++ gs)

theorem parts_message {m : ExtensionRequest} {gs : List PbPart} (hg : PbMessage 100 gs m.unknown)
    (h : m.serialize.length < 2 ^ 31) : PbMessage 100 (m.parts gs) m.serialize := by
  rw [serialize_eq] at h ⊢
  simp only [List.length_append] at h
  unfold parts
  refine Pb.message_append (identityParts_message (by omega)) (Pb.message_append ?_ hg)
  unfold typeParts
  split
  · exact .nil
  · exact Pb.intField_pb (by decide) (by decide) (by unfold enumVarint; omega)

theorem parse_serialize (m : ExtensionRequest) (h1 : -(2 ^ 31) ≤ m.requestType) (h2 : m.requestType < 2 ^ 31)
    (h : m.serialize.length < 2 ^ 31)
    (hu : Foreign 100 requestKnows m.unknown) (hi : ∀ u, m.identity = some u → Foreign 99 identityKnows u.unknown) :
    parse m.serialize = some m := by
  obtain ⟨gs, g1, g2⟩ := hu
  have hb : (identityBytes m.identity).length < 2 ^ 31 := by
    rw [serialize_eq] at h
    simp only [List.length_append] at h
    omega
  obtain ⟨ids, names, h3, h4, h5⟩ := identity_read hb hi
  have hk : ∀ f ∈ gs, f.isBytes 1 = false ∧ f.isVarint 2 = false := fun f hf => by
    simpa [requestKnows] using g2 f hf
  have p1 : payloads 1 (m.parts gs) = payloads 1 (identityParts m.identity) := by
    unfold parts typeParts
    rw [payloads_append, payloads_append, payloads_foreign (fun f hf => (hk f hf).1)]
    split <;> simp [payloads, Pb.intPart]
  have p2 : varints 2 (m.parts gs) = if m.requestType = 0 then [] else [enumVarint m.requestType] := by
    unfold parts typeParts
    rw [varints_append, varints_append, varints_foreign (fun f hf => (hk f hf).2)]
    cases m.identity <;> split <;> simp [varints, Pb.intPart, identityParts, Pb.lenPart]
  have pf : foreign requestKnows (m.parts gs) = m.unknown := by
    unfold parts typeParts
    rw [foreign_append, foreign_append, foreign_none g1 g2, foreign_all, foreign_all]
    · simp
    · split <;> simp [requestKnows, PbPart.isVarint, PbPart.isBytes, Pb.intPart]
    · cases m.identity <;> simp [identityParts, requestKnows, PbPart.isBytes, Pb.lenPart]
  rw [parse_iff]
  refine ⟨m.parts gs, ids, names, parts_message g1 h, p1 ▸ h3, h4, ?_⟩
  rw [h5, pf, p2]
  obtain ⟨i, r, u⟩ := m
  by_cases e : r = 0
  · simp [e]
  · simp [e, enum_roundtrip r h1 h2]

theorem parse_foreign {bs : Bytes} {m : ExtensionRequest} (h : parse bs = some m) :
    Foreign 100 requestKnows m.unknown ∧ (∀ u, m.identity = some u → Foreign 99 identityKnows u.unknown) ∧
      -(2 ^ 31) ≤ m.requestType ∧ m.requestType < 2 ^ 31 := by
  obtain ⟨fs, ids, names, h1, h2, -, rfl⟩ := (parse_iff _ _).1 h
  refine ⟨foreign_foreign h1 _, identityAfter_foreign h2, ?_⟩
  show -(2 ^ 31) ≤ Option.getD _ 0 ∧ Option.getD _ 0 < 2 ^ 31
  cases (varints 2 fs).getLast? with
  | none => simp
  | some n => exact ⟨(enum_int32 n).1, (enum_int32 n).2.1⟩

end ExtensionRequest

theorem actionsUnknownOK_new (uid : String) (a d : List String) : ActionsUnknownOK (RegisterRestActionsRequest.new uid a d).rra :=
  ⟨foreign_nil _ _, fun u h => by cases h; exact foreign_nil _ _⟩

theorem extensionUnknownOK_new (rt : RequestType) (uid : String) : ExtensionUnknownOK (ExtensionTransportRequest.new rt uid).er :=
  ⟨foreign_nil _ _, fun u h => by cases h; exact foreign_nil _ _⟩

theorem rt_registerRestActions {m : RegisterRestActionsRequest} (h1 : TaskIdOK m.parent_task_id)
    (h2 : m.rra.serialize.length < 2 ^ 31) (h3 : ActionsUnknownOK m.rra) :
    RoundTrips m.writeTo RegisterRestActionsRequest.readFrom m := by
  obtain ⟨t, rra⟩ := m
  unfold RegisterRestActionsRequest.writeTo RegisterRestActionsRequest.readFrom
  replace h2 : rra.serialize.length < 2 ^ 31 := h2
  refine (rt_taskId h1).seq ((rt_vint (show rra.serialize.length < 2 ^ 35 by omega)).seq ?_)
  have hp := RegisterRestActions.parse_serialize rra h2 h3.1 h3.2
  refine ⟨rfl, fun rest => ?_⟩
  simp only [W.emit_out]
  rw [Reader.bind_ok (readBytes_append _ _), hp]
  rfl

theorem rt_extensionTransport {m : ExtensionTransportRequest} (h1 : TaskIdOK m.parent_task_id)
    (h2 : -(2 ^ 31) ≤ m.er.requestType) (h3 : m.er.requestType < 2 ^ 31)
    (h4 : m.er.serialize.length < 2 ^ 31) (h5 : ExtensionUnknownOK m.er) :
    RoundTrips m.writeTo ExtensionTransportRequest.readFrom m := by
  obtain ⟨t, er⟩ := m
  unfold ExtensionTransportRequest.writeTo ExtensionTransportRequest.readFrom
  replace h4 : er.serialize.length < 2 ^ 31 := h4
  refine (rt_taskId h1).seq ((rt_vint (show er.serialize.length < 2 ^ 35 by omega)).seq ?_)
  have hp := ExtensionRequest.parse_serialize er h2 h3 h4 h5.1 h5.2
  refine ⟨rfl, fun rest => ?_⟩
  simp only [W.emit_out]
  rw [Reader.bind_ok (readBytes_append _ _), hp]
  rfl

end Verif
