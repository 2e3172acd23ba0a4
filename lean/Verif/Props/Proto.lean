import Verif.Lemmas.ProtoSize
/-!
# C96: protocol-buffer messages of any peer; C103: what other versions add survives

C61 says that what the extension writes it reads back.  Here the other end is any proto3 writer
(`Spec/Protobuf.lean`): fields in any order, unknown fields of any kind anywhere, padded varints, a
sub-message in several pieces.
-/

namespace Verif
open Py StreamInput StreamOutput Spec

theorem orDecodeError_some {α : Type} (a : α) (bs : Bytes) : orDecodeError (some a) bs = .ok (a, bs) := rfl

theorem identityAfter_wire (ids : List (List PbPart)) (names : List String) :
    identityAfter none ids names = identityOnWire ids names := by
  unfold identityAfter identityOnWire
  simp

theorem actionsOnWire_parse {bs : Bytes} {r : RegisterRestActions} : RegisterRestActions.parse bs = some r ↔
    ∃ fs ids names actions deprecated, ActionsOnWire bs fs ids names actions deprecated ∧
      r = ⟨identityOnWire ids names, actions, deprecated, foreign actionsKnow fs⟩ := by
  rw [RegisterRestActions.parse_iff]
  simp only [identityAfter_wire]
  constructor
  · rintro ⟨fs, ids, names, a, d, h1, h2, h3, h4, h5, h6⟩
    exact ⟨fs, ids, names, a, d, ⟨h1, h2, h3, h4, h5⟩, h6⟩
  · rintro ⟨fs, ids, names, a, d, ⟨h1, h2, h3, h4, h5⟩, h6⟩
    exact ⟨fs, ids, names, a, d, h1, h2, h3, h4, h5, h6⟩

theorem requestOnWire_parse {bs : Bytes} {r : ExtensionRequest} : ExtensionRequest.parse bs = some r ↔
    ∃ fs ids names, RequestOnWire bs fs ids names ∧
      r = ⟨identityOnWire ids names, ((varints 2 fs).getLast?.map ExtensionRequest.enumOfVarint).getD 0,
        foreign requestKnows fs⟩ := by
  rw [ExtensionRequest.parse_iff]
  simp only [identityAfter_wire]
  constructor
  · rintro ⟨fs, ids, names, h1, h2, h3, h6⟩
    exact ⟨fs, ids, names, ⟨h1, h2, h3⟩, h6⟩
  · rintro ⟨fs, ids, names, ⟨h1, h2, h3⟩, h6⟩
    exact ⟨fs, ids, names, h1, h2, h3, h6⟩

theorem actions_readFrom {t : TaskId} (ht : TaskIdOK t) {bs : Bytes} (hl : bs.length < 2 ^ 35) (rest : Bytes) :
    RegisterRestActionsRequest.readFrom (t.writeTo.out ++ ((writeVInt bs.length).out ++ (bs ++ rest))) =
      match RegisterRestActions.parse bs with
      | some m => .ok (⟨t, m⟩, rest)
      | none => .error .proto := by
  unfold RegisterRestActionsRequest.readFrom
  rw [Reader.bind_ok ((rt_taskId ht).2 _), Reader.bind_ok ((rt_vint hl).2 _),
    Reader.bind_ok (readBytes_append _ _)]
  cases RegisterRestActions.parse bs <;> rfl

theorem request_readFrom {t : TaskId} (ht : TaskIdOK t) {bs : Bytes} (hl : bs.length < 2 ^ 35) (rest : Bytes) :
    ExtensionTransportRequest.readFrom (t.writeTo.out ++ ((writeVInt bs.length).out ++ (bs ++ rest))) =
      match ExtensionRequest.parse bs with
      | some m => .ok (⟨t, m⟩, rest)
      | none => .error .proto := by
  unfold ExtensionTransportRequest.readFrom
  rw [Reader.bind_ok ((rt_taskId ht).2 _), Reader.bind_ok ((rt_vint hl).2 _),
    Reader.bind_ok (readBytes_append _ _)]
  cases ExtensionRequest.parse bs <;> rfl

/-! ## Reading -/

/-- C96, reading a list of REST actions: for every well-formed message, whatever fields it holds and in
whatever order, the actions are the strings of field 2 in order, the deprecated ones those of field 3,
and the unique id is the last one given in the identity sub-messages (none when there is no such
sub-message).  The bytes of every other field are kept aside, and the bytes after the message are left. -/
theorem C96_reads_rest_actions {bs : Bytes} {fs : List PbPart} {ids : List (List PbPart)}
    {names actions deprecated : List String} (h : ActionsOnWire bs fs ids names actions deprecated)
    (hl : bs.length < 2 ^ 31) {t : TaskId} (ht : TaskIdOK t) (rest : Bytes) :
    RegisterRestActionsRequest.readFrom (t.writeTo.out ++ ((writeVInt bs.length).out ++ (bs ++ rest))) =
      .ok (⟨t, ⟨identityOnWire ids names, actions, deprecated, foreign actionsKnow fs⟩⟩, rest) := by
  rw [actions_readFrom ht (by omega), actionsOnWire_parse.2 ⟨fs, ids, names, actions, deprecated, h, rfl⟩]

/-- C96, everything else is refused: bytes that are not such a message, be it for a field cut short, a wire type that does not
exist, a group that is not closed or nested too deeply, or a string that is not UTF-8, raise. -/
theorem C96_refuses_rest_actions {bs : Bytes} (h : ¬ ∃ fs ids names actions deprecated,
      ActionsOnWire bs fs ids names actions deprecated) (hl : bs.length < 2 ^ 31) {t : TaskId} (ht : TaskIdOK t)
    (rest : Bytes) :
    RegisterRestActionsRequest.readFrom (t.writeTo.out ++ ((writeVInt bs.length).out ++ (bs ++ rest))) = .error .proto := by
  rw [actions_readFrom ht (by omega)]
  cases hp : RegisterRestActions.parse bs with
  | none => rfl
  | some r =>
    obtain ⟨fs, ids, names, a, d, h1, -⟩ := actionsOnWire_parse.1 hp
    exact absurd ⟨fs, ids, names, a, d, h1⟩ h

/-- C96, reading an extension request: the same for the unique id, and the request type is the signed
32-bit value of the last varint of field 2 (0, the first request type, when there is none). -/
theorem C96_reads_extension_request {bs : Bytes} {fs : List PbPart} {ids : List (List PbPart)} {names : List String}
    (h : RequestOnWire bs fs ids names) (hl : bs.length < 2 ^ 31) {t : TaskId} (ht : TaskIdOK t) (rest : Bytes) :
    ∃ r, ExtensionTransportRequest.readFrom (t.writeTo.out ++ ((writeVInt bs.length).out ++ (bs ++ rest))) =
      .ok (⟨t, ⟨identityOnWire ids names, r, foreign requestKnows fs⟩⟩, rest) ∧
      (match (varints 2 fs).getLast? with | none => r = 0 | some n => IsInt32 n r) := by
  refine ⟨_, by rw [request_readFrom ht (by omega), requestOnWire_parse.2 ⟨fs, ids, names, h, rfl⟩], ?_⟩
  cases (varints 2 fs).getLast? with
  | none => rfl
  | some n => exact enum_int32 n

/-- C96, everything else is refused. -/
theorem C96_refuses_extension_request {bs : Bytes} (h : ¬ ∃ fs ids names, RequestOnWire bs fs ids names)
    (hl : bs.length < 2 ^ 31) {t : TaskId} (ht : TaskIdOK t) (rest : Bytes) :
    ExtensionTransportRequest.readFrom (t.writeTo.out ++ ((writeVInt bs.length).out ++ (bs ++ rest))) = .error .proto := by
  rw [request_readFrom ht (by omega)]
  cases hp : ExtensionRequest.parse bs with
  | none => rfl
  | some r =>
    obtain ⟨fs, ids, names, h1, -⟩ := requestOnWire_parse.1 hp
    exact absurd ⟨fs, ids, names, h1⟩ h

/-- The signed 32-bit value is determined. -/
theorem C96_int32_unique {n : Nat} {i j : Int} (hi : IsInt32 n i) (hj : IsInt32 n j) : i = j := by
  obtain ⟨a1, a2, a3⟩ := hi
  obtain ⟨b1, b2, b3⟩ := hj
  omega

example := @C96_int32_unique (2 ^ 64 - 1) (-1) (-1) (by unfold IsInt32; omega) (by unfold IsInt32; omega)

/-! ## Writing -/

theorem actions_out {m : RegisterRestActionsRequest} (ht : TaskIdOK m.parent_task_id) (h : m.rra.serialize.length < 2 ^ 31) :
    m.writeTo.err = none ∧ m.writeTo.out =
      m.parent_task_id.writeTo.out ++ ((writeVInt m.rra.serialize.length).out ++ m.rra.serialize) := by
  have e1 := (rt_taskId ht).1
  have e2 := (rt_vint (show m.rra.serialize.length < 2 ^ 35 by omega)).1
  unfold RegisterRestActionsRequest.writeTo
  constructor
  · exact (W.err_append _ _).2 ⟨e1, (W.err_append _ _).2 ⟨e2, rfl⟩⟩
  · rw [W.out_append e1, W.out_append e2]; rfl

theorem request_out {m : ExtensionTransportRequest} (ht : TaskIdOK m.parent_task_id) (h : m.er.serialize.length < 2 ^ 31) :
    m.writeTo.err = none ∧ m.writeTo.out =
      m.parent_task_id.writeTo.out ++ ((writeVInt m.er.serialize.length).out ++ m.er.serialize) := by
  have e1 := (rt_taskId ht).1
  have e2 := (rt_vint (show m.er.serialize.length < 2 ^ 35 by omega)).1
  unfold ExtensionTransportRequest.writeTo
  constructor
  · exact (W.err_append _ _).2 ⟨e1, (W.err_append _ _).2 ⟨e2, rfl⟩⟩
  · rw [W.out_append e1, W.out_append e2]; rfl

theorem content_lenParts (num : Nat) (l : List String) :
    (l.map fun s => Pb.lenPart num (utf8 s)).map PbPart.content = l.map fun s => (num, .bytes (utf8 s)) := by
  simp [Pb.lenPart, PbPart.content]

/-- The fields of an identity object, as its parts. -/
theorem identity_written {u : ExtensionIdentity} (h : u.serialize.length < 2 ^ 31) :
    ∃ gs known, u.serialize = known ++ u.unknown ∧ PbMessage 0 gs known ∧
      gs.map PbPart.content = if u.uniqueId = "" then [] else [(1, .bytes (utf8 u.uniqueId))] := by
  refine ⟨ExtensionIdentity.nameParts u.uniqueId, _, rfl, ?_, ?_⟩
  · unfold ExtensionIdentity.serialize at h
    unfold ExtensionIdentity.nameParts
    split
    · exact .nil
    · next hne =>
      rw [if_neg hne, List.length_append] at h
      have := Pb.length_lenField 1 (utf8 u.uniqueId)
      exact Pb.lenField_pb (by decide) (by decide) (by omega)
  · unfold ExtensionIdentity.nameParts
    split <;> rfl

theorem actions_written {m : RegisterRestActions} (h : m.serialize.length < 2 ^ 31) :
    ∃ gs known, m.serialize = known ++ m.unknown ∧ PbMessage 0 gs known ∧
      gs.map PbPart.content = (m.identity.map fun u => (1, .bytes u.serialize)).toList ++
        (m.restActions.map (fun s => (2, .bytes (utf8 s))) ++
          m.deprecatedRestActions.map (fun s => (3, .bytes (utf8 s)))) := by
  rw [RegisterRestActions.serialize_eq] at h ⊢
  simp only [List.length_append] at h
  refine ⟨_, _, by rw [← List.append_assoc, ← List.append_assoc],
    Pb.message_append (Pb.message_append (identityParts_message (by omega))
      (Pb.flatMap_pb (by decide) (by decide) _ (by omega))) (Pb.flatMap_pb (by decide) (by decide) _ (by omega)), ?_⟩
  rw [List.map_append, List.map_append, content_lenParts, content_lenParts, List.append_assoc]
  cases m.identity <;> rfl

theorem request_written {m : ExtensionRequest} (h : m.serialize.length < 2 ^ 31) :
    ∃ gs known, m.serialize = known ++ m.unknown ∧ PbMessage 0 gs known ∧
      gs.map PbPart.content = (m.identity.map fun u => (1, .bytes u.serialize)).toList ++
        (if m.requestType = 0 then [] else [(2, .varint (m.requestType % 2 ^ 64).toNat)]) := by
  rw [ExtensionRequest.serialize_eq] at h ⊢
  simp only [List.length_append] at h
  refine ⟨identityParts m.identity ++ ExtensionRequest.typeParts m.requestType,
    identityBytes m.identity ++ (if m.requestType = 0 then [] else Pb.intField 2 (ExtensionRequest.enumVarint m.requestType)),
    by rw [← List.append_assoc],
    Pb.message_append (identityParts_message (by omega)) ?_, ?_⟩
  · unfold ExtensionRequest.typeParts
    split
    · exact .nil
    · exact Pb.intField_pb (by decide) (by decide) (by unfold ExtensionRequest.enumVarint; omega)
  · rw [List.map_append]
    unfold ExtensionRequest.typeParts
    congr 1
    · cases m.identity <;> rfl
    · split <;> rfl

/-- C96, writing a list of REST actions: what is written is a proto3 message with the identity in field
1, the actions in field 2 and the deprecated ones in field 3, in order, and nothing else, so that any proto3 reader finds
them. -/
theorem C96_writes_rest_actions (uid : String) (actions deprecated : List String)
    (h : (RegisterRestActionsRequest.new uid actions deprecated).rra.serialize.length < 2 ^ 31) :
    ∃ ident body fs gs,
      (RegisterRestActionsRequest.new uid actions deprecated).writeTo.out =
        ({} : TaskId).writeTo.out ++ ((writeVInt body.length).out ++ body) ∧
      PbMessage 0 fs body ∧
      fs.map PbPart.content = (1, .bytes ident) :: (actions.map (fun s => (2, .bytes (utf8 s))) ++
        deprecated.map (fun s => (3, .bytes (utf8 s)))) ∧
      PbMessage 0 gs ident ∧ gs.map PbPart.content = if uid = "" then [] else [(1, .bytes (utf8 uid))] := by
  obtain ⟨fs, known, e, hm, hc⟩ := actions_written h
  have hi : (ExtensionIdentity.serialize { uniqueId := uid }).length < 2 ^ 31 := by
    rw [RegisterRestActions.serialize_eq] at h
    have := Pb.length_lenField 1 (ExtensionIdentity.serialize { uniqueId := uid })
    simp only [RegisterRestActionsRequest.new, identityBytes, List.length_append] at h
    omega
  obtain ⟨gs, kn, e', hm', hc'⟩ := identity_written hi
  rw [show (RegisterRestActionsRequest.new uid actions deprecated).rra.unknown = [] from rfl, List.append_nil] at e
  rw [show (({ uniqueId := uid } : ExtensionIdentity)).unknown = [] from rfl, List.append_nil] at e'
  exact ⟨_, _, fs, gs, (actions_out (show TaskIdOK {} by decide) h).2, e ▸ hm, hc, e' ▸ hm', hc'⟩

example := C96_writes_rest_actions "hi" ["GET /é", "PUT /b"] [""] (by decide +kernel)

/-- C96, writing an extension request: identity in field 1, the request type as a varint in field 2,
left out when it is 0, the proto3 default. -/
theorem C96_writes_extension_request (rt : RequestType) (uid : String)
    (h : (ExtensionTransportRequest.new rt uid).er.serialize.length < 2 ^ 31) :
    ∃ ident body fs gs,
      (ExtensionTransportRequest.new rt uid).writeTo.out =
        ({} : TaskId).writeTo.out ++ ((writeVInt body.length).out ++ body) ∧
      PbMessage 0 fs body ∧
      fs.map PbPart.content = (1, .bytes ident) :: (if rt.value = 0 then [] else [(2, .varint rt.value.toNat)]) ∧
      PbMessage 0 gs ident ∧ gs.map PbPart.content = if uid = "" then [] else [(1, .bytes (utf8 uid))] := by
  obtain ⟨fs, known, e, hm, hc⟩ := request_written h
  have hi : (ExtensionIdentity.serialize { uniqueId := uid }).length < 2 ^ 31 := by
    rw [ExtensionRequest.serialize_eq] at h
    have := Pb.length_lenField 1 (ExtensionIdentity.serialize { uniqueId := uid })
    simp only [ExtensionTransportRequest.new, identityBytes, List.length_append] at h
    omega
  obtain ⟨gs, kn, e', hm', hc'⟩ := identity_written hi
  rw [show (ExtensionTransportRequest.new rt uid).er.unknown = [] from rfl, List.append_nil] at e
  rw [show (({ uniqueId := uid } : ExtensionIdentity)).unknown = [] from rfl, List.append_nil] at e'
  have hv : (rt.value % 2 ^ 64).toNat = rt.value.toNat := by cases rt <;> rfl
  refine ⟨_, _, fs, gs, (request_out (show TaskIdOK {} by decide) h).2, e ▸ hm, ?_, e' ▸ hm', hc'⟩
  rw [hc]
  simp only [ExtensionTransportRequest.new, hv]
  rfl

example := C96_writes_extension_request .GET_SETTINGS "x" (by decide +kernel)

/-! ## What other versions add -/

/-- The unknown fields an object has after reading are always well-formed fields that it does not know. -/
theorem C103_always_kept_well_formed (input rest : Bytes) :
    (∀ m, RegisterRestActionsRequest.readFrom input = .ok (m, rest) → ActionsUnknownOK m.rra) ∧
    (∀ m, ExtensionTransportRequest.readFrom input = .ok (m, rest) → ExtensionUnknownOK m.er) := by
  constructor
  · intro m h
    unfold RegisterRestActionsRequest.readFrom at h
    obtain ⟨t, i1, h1, h⟩ := Reader.bind_eq_ok.1 h
    obtain ⟨n, i2, h2, h⟩ := Reader.bind_eq_ok.1 h
    obtain ⟨b, i3, h3, h⟩ := Reader.bind_eq_ok.1 h
    obtain ⟨r, i4, h4, h⟩ := Reader.bind_eq_ok.1 h
    cases hp : RegisterRestActions.parse b with
    | none => rw [hp] at h4; cases h4
    | some r' =>
      rw [hp] at h4; cases h4; cases h
      exact RegisterRestActions.parse_foreign hp
  · intro m h
    unfold ExtensionTransportRequest.readFrom at h
    obtain ⟨t, i1, h1, h⟩ := Reader.bind_eq_ok.1 h
    obtain ⟨n, i2, h2, h⟩ := Reader.bind_eq_ok.1 h
    obtain ⟨b, i3, h3, h⟩ := Reader.bind_eq_ok.1 h
    obtain ⟨r, i4, h4, h⟩ := Reader.bind_eq_ok.1 h
    cases hp : ExtensionRequest.parse b with
    | none => rw [hp] at h4; cases h4
    | some r' =>
      rw [hp] at h4; cases h4; cases h
      exact ⟨(ExtensionRequest.parse_foreign hp).1, (ExtensionRequest.parse_foreign hp).2.1⟩

/-- C103, a list of REST actions that was read and is written again: the known fields, then every byte of the unknown ones in
their order; the identity likewise, its unknown fields after the unique id.  It is no longer than it came, and reading it again
gives the same object. -/
theorem C103_forwards_rest_actions {bs : Bytes} {fs : List PbPart} {ids : List (List PbPart)}
    {names actions deprecated : List String} (h : ActionsOnWire bs fs ids names actions deprecated)
    (hl : bs.length < 2 ^ 31) {t : TaskId} (ht : TaskIdOK t) (rest : Bytes) {m : RegisterRestActionsRequest}
    (hm : RegisterRestActionsRequest.readFrom (t.writeTo.out ++ ((writeVInt bs.length).out ++ (bs ++ rest))) = .ok (m, rest)) :
    m.writeTo.err = none ∧
    (∃ body known ident gs, m.writeTo.out = t.writeTo.out ++ ((writeVInt body.length).out ++ body) ∧
      body.length ≤ bs.length ∧ body = known ++ foreign actionsKnow fs ∧ PbMessage 0 gs known ∧
      gs.map PbPart.content = (if ids = [] then [] else [(1, .bytes ident)]) ++
        (actions.map (fun s => (2, .bytes (utf8 s))) ++ deprecated.map (fun s => (3, .bytes (utf8 s)))) ∧
      (ids ≠ [] → ∃ name ns, ident = name ++ ids.flatMap (foreign identityKnows) ∧ PbMessage 0 ns name ∧
        ns.map PbPart.content =
          if names.getLast?.getD "" = "" then [] else [(1, .bytes (utf8 (names.getLast?.getD "")))])) ∧
    ∀ rest', RegisterRestActionsRequest.readFrom (m.writeTo.out ++ rest') = .ok (m, rest') := by
  rw [C96_reads_rest_actions h hl ht] at hm
  cases hm
  have hp := actionsOnWire_parse.2 ⟨fs, ids, names, actions, deprecated, h, rfl⟩
  have hlen := RegisterRestActions.parse_length hp
  have hsz := lt_of_le_of_lt hlen hl
  have hfor := RegisterRestActions.parse_foreign hp
  obtain ⟨ho1, ho2⟩ := actions_out (m := ⟨t, ⟨identityOnWire ids names, actions, deprecated, foreign actionsKnow fs⟩⟩) ht hsz
  refine ⟨ho1, ?_, (rt_registerRestActions (m := ⟨t, _⟩) ht hsz hfor).2⟩
  obtain ⟨gs, known, e, hm, hc⟩ := actions_written hsz
  refine ⟨_, known, ((identityOnWire ids names).map ExtensionIdentity.serialize).getD [], gs, ho2, hlen, e, hm, ?_, ?_⟩
  · rw [hc]
    unfold identityOnWire
    split <;> rfl
  · intro hne
    have ei : identityOnWire ids names = some ⟨names.getLast?.getD "", ids.flatMap (foreign identityKnows)⟩ := if_neg hne
    rw [ei] at hsz ⊢
    rw [RegisterRestActions.serialize_eq] at hsz
    have := Pb.length_lenField 1 (ExtensionIdentity.serialize ⟨names.getLast?.getD "", ids.flatMap (foreign identityKnows)⟩)
    simp only [identityBytes, List.length_append] at hsz
    obtain ⟨ns, name, e1, e2, e3⟩ := identity_written
      (u := ⟨names.getLast?.getD "", ids.flatMap (foreign identityKnows)⟩) (by omega)
    exact ⟨name, ns, e1, e2, e3⟩

/-- C103, the same for an extension request; a negative request type takes ten bytes when it is written, so the message may
grow by a few bytes. -/
theorem C103_forwards_extension_request {bs : Bytes} {fs : List PbPart} {ids : List (List PbPart)} {names : List String}
    (h : RequestOnWire bs fs ids names) (hl : bs.length < 2 ^ 31 - 11) {t : TaskId} (ht : TaskIdOK t) (rest : Bytes)
    {m : ExtensionTransportRequest}
    (hm : ExtensionTransportRequest.readFrom (t.writeTo.out ++ ((writeVInt bs.length).out ++ (bs ++ rest))) = .ok (m, rest)) :
    m.writeTo.err = none ∧
    (∃ body known ident gs, m.writeTo.out = t.writeTo.out ++ ((writeVInt body.length).out ++ body) ∧
      body = known ++ foreign requestKnows fs ∧ PbMessage 0 gs known ∧
      gs.map PbPart.content = (if ids = [] then [] else [(1, .bytes ident)]) ++
        (if m.er.requestType = 0 then [] else [(2, .varint (m.er.requestType % 2 ^ 64).toNat)]) ∧
      (ids ≠ [] → ∃ name ns, ident = name ++ ids.flatMap (foreign identityKnows) ∧ PbMessage 0 ns name ∧
        ns.map PbPart.content =
          if names.getLast?.getD "" = "" then [] else [(1, .bytes (utf8 (names.getLast?.getD "")))])) ∧
    ∀ rest', ExtensionTransportRequest.readFrom (m.writeTo.out ++ rest') = .ok (m, rest') := by
  have hp := requestOnWire_parse.2 ⟨fs, ids, names, h, rfl⟩
  rw [request_readFrom ht (by omega), hp] at hm
  cases hm
  have hlen := ExtensionRequest.parse_length hp
  have hsz := lt_of_le_of_lt hlen (show bs.length + 11 < 2 ^ 31 by omega)
  obtain ⟨f1, f2, f3, f4⟩ := ExtensionRequest.parse_foreign hp
  obtain ⟨ho1, ho2⟩ := request_out (m := ⟨t, ⟨identityOnWire ids names,
    ((varints 2 fs).getLast?.map ExtensionRequest.enumOfVarint).getD 0, foreign requestKnows fs⟩⟩) ht hsz
  refine ⟨ho1, ?_, (rt_extensionTransport (m := ⟨t, _⟩) ht f3 f4 hsz ⟨f1, f2⟩).2⟩
  obtain ⟨gs, known, e, hm, hc⟩ := request_written hsz
  refine ⟨_, known, ((identityOnWire ids names).map ExtensionIdentity.serialize).getD [], gs, ho2, e, hm, ?_, ?_⟩
  · have hid : ((identityOnWire ids names).map fun u => ((1, .bytes u.serialize) : Nat × PbPayload)).toList =
        if ids = [] then [] else [(1, .bytes (((identityOnWire ids names).map ExtensionIdentity.serialize).getD []))] := by
      unfold identityOnWire
      split <;> rfl
    rewrite [hc, hid]
    rfl
  · intro hne
    have ei : identityOnWire ids names = some ⟨names.getLast?.getD "", ids.flatMap (foreign identityKnows)⟩ := if_neg hne
    rw [ei] at hsz ⊢
    rw [ExtensionRequest.serialize_eq] at hsz
    have := Pb.length_lenField 1 (ExtensionIdentity.serialize ⟨names.getLast?.getD "", ids.flatMap (foreign identityKnows)⟩)
    simp only [identityBytes, List.length_append] at hsz
    obtain ⟨ns, name, e1, e2, e3⟩ := identity_written
      (u := ⟨names.getLast?.getD "", ids.flatMap (foreign identityKnows)⟩) (by omega)
    exact ⟨name, ns, e1, e2, e3⟩

/-! ## A message of a later peer -/

theorem one_byte {limit : Nat} (b : UInt8) (hl : 0 < limit) (hb : b.toNat < 128) : PbVarint limit [b] b.toNat := by
  refine ⟨by simp, hl, by simp [varintValue]; omega, ?_⟩
  intro k hk
  simp only [List.length_singleton] at hk
  obtain rfl : k = 0 := by omega
  simp; omega

theorem one_tag {num wire : Nat} (b : UInt8) (hn : 0 < num ∧ num < 2 ^ 29) (h : b.toNat = num * 8 + wire)
    (hb : b.toNat < 128) : PbTag num wire [b] := ⟨hn.1, hn.2, h ▸ one_byte b (by decide) hb⟩

/-- The fields of the message below. -/
def sampleParts : List PbPart :=
  [⟨2, .bytes (utf8 "GET /a"), [0x92, 0] ++ ([6] ++ utf8 "GET /a")⟩,
   ⟨9, .eight [1, 2, 3, 4, 5, 6, 7, 8], [0x49] ++ [1, 2, 3, 4, 5, 6, 7, 8]⟩,
   ⟨1, .bytes [0x0a, 1, 0x78, 0x18, 7], [0x0a] ++ ([5] ++ [0x0a, 1, 0x78, 0x18, 7])⟩,
   ⟨15, .group [0x7a, 1, 0xff], [0x7b] ++ ([0x7a, 1, 0xff] ++ [0x7c])⟩]

/-- The fields of its identity: the unique id, and an unknown field 3. -/
def sampleIdParts : List PbPart := [⟨1, .bytes (utf8 "x"), [0x0a] ++ ([1] ++ utf8 "x")⟩, ⟨3, .varint 7, [0x18] ++ [7]⟩]

/-- Its bytes. -/
def sampleBytes : Bytes := sampleParts.flatMap (·.raw)

/-- A message of a later peer meets the hypotheses: field 2 before field 1, an unknown 64-bit field 9, an
unknown group 15 with a string in it, a padded tag, and an unknown field in the identity. -/
theorem sample_onWire : ActionsOnWire sampleBytes sampleParts [sampleIdParts] ["x"] ["GET /a"] [] := by
  have pad : PbTag 2 2 [0x92, 0] := ⟨by decide, by decide, by constructor <;> decide⟩
  have hid : PbMessage 99 sampleIdParts ([0x0a, 1, 0x78, 0x18, 7] : Bytes) :=
    (show ([0x0a] ++ ([1] ++ utf8 "x")) ++ (([0x18] ++ [7]) ++ []) = ([0x0a, 1, 0x78, 0x18, 7] : Bytes) by decide +kernel) ▸
    .plain (.bytes (one_tag 0x0a (by decide) rfl (by decide))
        (by rw [show (utf8 "x").length = 1 by decide +kernel]; exact one_byte 1 (by decide) (by decide)) (by decide +kernel))
      (.plain (.varint (n := 7) (one_tag 0x18 (by decide) rfl (by decide)) (one_byte 7 (by decide) (by decide))) .nil)
  have hg : PbMessage 99 [⟨15, .bytes [0xff], [0x7a] ++ ([1] ++ [0xff])⟩] (([0x7a] ++ ([1] ++ [0xff])) ++ []) :=
    .plain (.bytes (one_tag 0x7a (by decide) rfl (by decide)) (one_byte 1 (by decide) (by decide)) (by decide)) .nil
  refine ⟨?_, .cons hid .nil, rfl, rfl, rfl⟩
  refine .plain (.bytes pad
      (by rw [show (utf8 "GET /a").length = 6 by decide +kernel]; exact one_byte 6 (by decide) (by decide)) (by decide +kernel)) ?_
  refine .plain (.eight (one_tag 0x49 (by decide) rfl (by decide)) rfl) ?_
  refine .plain (.bytes (one_tag 0x0a (by decide) rfl (by decide)) (one_byte 5 (by decide) (by decide)) (by decide)) ?_
  exact .group (one_tag 0x7b (by decide) rfl (by decide)) hg (one_tag 0x7c (by decide) rfl (by decide)) .nil

theorem sample_requestOnWire : RequestOnWire sampleBytes sampleParts [sampleIdParts] ["x"] :=
  ⟨sample_onWire.message, sample_onWire.identities, rfl⟩

example := C96_reads_rest_actions sample_onWire (by decide +kernel) (t := ⟨"node", some 5⟩) (by decide +kernel) [7]

example := C96_reads_extension_request sample_requestOnWire (by decide +kernel) (t := ⟨"node", some 5⟩) (by decide +kernel) [7]

example := C103_forwards_rest_actions sample_onWire (by decide +kernel) (t := ⟨"node", some 5⟩) (by decide +kernel) [7]
  (C96_reads_rest_actions sample_onWire (by decide +kernel) (by decide +kernel) [7])

/-- What the object keeps, and what it is written as: known fields first, the unknown ones after them. -/
example : foreign actionsKnow sampleParts = [0x49, 1, 2, 3, 4, 5, 6, 7, 8, 0x7b, 0x7a, 1, 0xff, 0x7c] ∧
    foreign identityKnows sampleIdParts = [0x18, 7] ∧
    (RegisterRestActions.parse sampleBytes).map (·.serialize) = some ([0x0a, 5, 0x0a, 1, 0x78, 0x18, 7, 0x12, 6] ++
      utf8 "GET /a" ++ [0x49, 1, 2, 3, 4, 5, 6, 7, 8, 0x7b, 0x7a, 1, 0xff, 0x7c]) := by decide +kernel

example : ∃ m, ExtensionTransportRequest.readFrom ((⟨"node", some 5⟩ : TaskId).writeTo.out ++
    ((writeVInt sampleBytes.length).out ++ (sampleBytes ++ [7]))) = .ok (m, [7]) ∧ ExtensionUnknownOK m.er := by
  obtain ⟨r, h, -⟩ := C96_reads_extension_request sample_requestOnWire (by decide +kernel) (t := ⟨"node", some 5⟩)
    (by decide +kernel) [7]
  exact ⟨_, h, (C103_always_kept_well_formed _ _).2 _ h⟩

example : True := by
  obtain ⟨r, h, -⟩ := C96_reads_extension_request sample_requestOnWire (by decide +kernel) (t := ⟨"node", some 5⟩)
    (by decide +kernel) [7]
  have := C103_forwards_extension_request sample_requestOnWire (by decide +kernel) (by decide +kernel) [7] h
  trivial

/-- What is refused: a cut field, wire types 6 and 7, field number 0, an end of a group that was not begun, a group ended as
another, a tag of six bytes and an action that is not UTF-8. -/
example : ([[0x12, 3, 97], [0x16], [0x17], [0x02, 0], [0x0c], [0x0b, 0x14], [0x92, 0x80, 0x80, 0x80, 0x80, 0, 1, 97],
    [0x12, 1, 0xff]] : List Bytes).map RegisterRestActions.parse = List.replicate 8 none := by decide +kernel

/-- A message cut short is no message, so it is refused. -/
example := C96_refuses_rest_actions (bs := [0x12, 3, 97])
  (fun ⟨fs, ids, names, a, d, h⟩ => by
    have h1 := actionsOnWire_parse.2 ⟨fs, ids, names, a, d, h, rfl⟩
    have h2 : RegisterRestActions.parse [0x12, 3, 97] = none := by decide +kernel
    rw [h2] at h1; cases h1) (by decide) (t := ⟨"node", some 5⟩) (by decide +kernel) [7]

example := C96_refuses_extension_request (bs := [0x12, 3, 97])
  (fun ⟨fs, ids, names, h⟩ => by
    have h1 := requestOnWire_parse.2 ⟨fs, ids, names, h, rfl⟩
    have h2 : ExtensionRequest.parse [0x12, 3, 97] = none := by decide +kernel
    rw [h2] at h1; cases h1) (by decide) (t := ⟨"node", some 5⟩) (by decide +kernel) [7]

/-- A request type above 32 bits: the low 32 bits count. -/
example : IsInt32 (2 ^ 32 + 8) 8 ∧ IsInt32 (2 ^ 64 - 1) (-1) := by
  unfold IsInt32; omega

end Verif
