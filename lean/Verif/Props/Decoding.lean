import Verif.Lemmas.Local
import Verif.Lemmas.Rest
import Verif.Lemmas.ProtoWrite
import Verif.Lemmas.Header
import Verif.Props.Primitives
import Verif.Props.Parsers
import Verif.Spec.Varint
/-!
# C80 - C83: what decoders depend on and what they accept
-/

namespace Verif
open Py StreamInput StreamOutput Spec

/-! ## C80: decoders depend only on the bytes they consume -/

/-- C80, the primitive decoders. -/
theorem C80_primitives :
    readByte.Local ∧ readShort.Local ∧ readInt.Local ∧ readLong.Local ∧ readVInt.Local ∧ readVLong.Local ∧
    readZLong.Local ∧ readFloat.Local ∧ readDouble.Local ∧ readBoolean.Local ∧ readOptionalBoolean.Local ∧
    readString.Local ∧ (∀ n, (readBytes n).Local) ∧ readByteArray.Local ∧ readArraySize.Local ∧
    readVersion.Local ∧ readTimeValue.Local ∧ readByteSizeValue.Local ∧
    (∀ (α : Type) [PyEnum α], (readEnum α).Local) :=
  ⟨local_byte, local_short, local_int, local_long, local_vint, local_vlong, local_zlong, local_float, local_double,
   local_boolean, local_optionalBoolean, local_string, local_readBytes, local_byteArray, local_arraySize,
   local_version, local_timeValue, local_byteSizeValue, fun α _ => local_enum α⟩

/-- C80, optional values, arrays, dicts, generic values. -/
theorem C80_collections :
    readOptionalInt.Local ∧ readOptionalLong.Local ∧ readOptionalVLong.Local ∧ readOptionalString.Local ∧
    readOptionalStringArray.Local ∧ readStringArray.Local ∧ readStringDict.Local ∧ readStringArrayDict.Local ∧
    readStringSetDict.Local ∧ ∀ limit, (readGeneric limit).Local :=
  ⟨local_optionalInt, local_optionalLong, local_optionalVLong, local_optionalString, local_optionalStringArray,
   local_stringArray, local_stringDict, local_stringArrayDict, local_stringSetDict, local_generic⟩

/-- C80, headers, messages and the parts they are made of. -/
theorem C80_messages :
    TcpHeader.readFrom.Local ∧ ThreadContext.readFrom.Local ∧
    (∀ (m : OutboundMessage) h, (m.readFrom h).Local) ∧ (∀ (m : OutboundRequest) h, (m.readFrom h).Local) ∧
    (∀ (m : OutboundResponse) h, (m.readFrom h).Local) ∧ TaskId.readFrom.Local ∧ TransportAddress.readFrom.Local ∧
    DiscoveryNode.readFrom.Local ∧ ExtensionDependency.readFrom.Local ∧ DiscoveryExtensionNode.readFrom.Local ∧
    InitializeExtensionRequest.readFrom.Local ∧ InitializeExtensionResponse.readFrom.Local ∧
    AcknowledgedResponse.readFrom.Local ∧ HandshakerRequest.readFrom.Local ∧ HandshakerResponse.readFrom.Local ∧
    ServiceHandshakeRequest.readFrom.Local ∧ ServiceHandshakeResponse.readFrom.Local ∧
    RegisterRestActionsRequest.readFrom.Local ∧ ExtensionTransportRequest.readFrom.Local ∧
    (∀ r : ExtensionRestRequest, r.readFrom.Local) ∧ ExtensionRestResponse.readFrom.Local ∧
    RestExecuteOnExtensionResponse.readFrom.Local :=
  ⟨local_header, local_context, local_message, local_request, local_response, local_taskId, local_address,
   local_node, local_dependency, local_extensionNode, local_initRequest, local_initResponse, local_ack,
   local_handshakerRequest, local_handshakerResponse, local_serviceRequest, local_serviceResponse,
   local_registerRestActions, local_extensionTransport, local_restRequest, local_restResponse, local_execute⟩

/-- C80, the parsers and validators of settings. -/
theorem C80_parsers :
    IntParser.readFrom.Local ∧ IntParser.readLongFrom.Local ∧ FloatParser.readFloatFrom.Local ∧
    FloatParser.readDoubleFrom.Local ∧ TimeParser.readFrom.Local ∧ SizeParser.readFrom.Local ∧
    RegexValidator.readFrom.Local :=
  ⟨local_intParser, local_longParser, local_floatParser, local_doubleParser, local_timeParser, local_sizeParser,
   local_regex⟩

/-- C80, settings: reading into a dict `d` ends with the same entries and the same end whatever follows. -/
theorem C80_settings (limit : Nat) (d d' : Dict String PyVal) (input rest : Bytes)
    (h : Settings.readFrom limit d input = (d', .ok rest)) :
    ∃ used, input = used ++ rest ∧
      (rest ≠ [] → ∀ rest', Settings.readFrom limit d (used ++ rest') = (d', .ok rest')) := by
  have loop : ∀ (n : Nat) (d : Dict String PyVal) (input : Bytes),
      Settings.readLoop limit n d input = (d', .ok rest) →
      ∃ used, input = used ++ rest ∧
        (rest ≠ [] → ∀ rest', Settings.readLoop limit n d (used ++ rest') = (d', .ok rest')) := by
    intro n
    induction n with
    | zero =>
      intro d input h
      rw [Settings.readLoop] at h
      cases h
      exact ⟨[], rfl, fun _ _ => by rw [Settings.readLoop]; rfl⟩
    | succ n ih =>
      intro d input h
      rw [Settings.readLoop] at h
      split at h
      · cases h
      · next key value mid he =>
        have hl : Reader.Local (do let key ← readString; let value ← readGeneric limit; return (key, value)) := by
          have := local_string; have := local_generic limit; local_reader
        obtain ⟨u1, e1, k1⟩ := hl _ _ _ he
        obtain ⟨u2, e2, k2⟩ := ih _ _ h
        refine ⟨u1 ++ u2, by rw [e1, e2, List.append_assoc], fun hne rest' => ?_⟩
        have hm : mid ≠ [] := by rw [e2]; simp [hne]
        rw [Settings.readLoop, List.append_assoc, k1 hm]
        exact k2 hne rest'
  unfold Settings.readFrom at h
  split at h
  · cases h
  · next n mid he =>
    obtain ⟨u1, e1, k1⟩ := local_vint _ _ _ he
    obtain ⟨u2, e2, k2⟩ := loop _ _ _ h
    refine ⟨u1 ++ u2, by rw [e1, e2, List.append_assoc], fun hne rest' => ?_⟩
    have hm : mid ≠ [] := by rw [e2]; simp [hne]
    unfold Settings.readFrom
    rw [List.append_assoc, k1 hm]
    exact k2 hne rest'

/-- The condition is met: a string followed by another byte. -/
example : readString [3, 0x61, 0x62, 0x63, 9] = .ok ("abc", [9]) := by decide +kernel
/-- ... and it is needed: at the end of the input a shorter string is returned. -/
example : readString [3, 0x61, 0x62] = .ok ("ab", []) ∧ readString ([3, 0x61, 0x62] ++ [0x63]) = .ok ("abc", []) := by
  decide +kernel

/-! ## C81: encodings are uniquely decodable -/

theorem prefixFree_of {α : Type} {w : α → W} {ok : α → Prop} {r : Reader α} (h : ∀ a, ok a → RoundTrips (w a) r a) :
    PrefixFree w ok := by
  intro a b x y ha hb he
  have h1 := (h a ha).2 x
  rw [he, (h b hb).2 y] at h1
  simp only [Except.ok.injEq, Prod.mk.injEq] at h1
  exact ⟨h1.1.symm, h1.2.symm⟩

/-- C81, values: integers of each format, booleans, strings, byte arrays, versions, time and size values, enums,
arrays, dicts and generic values. -/
theorem C81_values :
    PrefixFree writeByte (fun i => -(2 ^ 7) ≤ i ∧ i < 2 ^ 7) ∧
    PrefixFree writeInt (fun i => -(2 ^ 31) ≤ i ∧ i < 2 ^ 31) ∧
    PrefixFree writeLong (fun i => -(2 ^ 63) ≤ i ∧ i < 2 ^ 63) ∧
    PrefixFree writeVInt (fun i => 0 ≤ i ∧ i < 2 ^ 35) ∧
    PrefixFree writeVLong (fun i => 0 ≤ i ∧ i < 2 ^ 64) ∧
    PrefixFree writeZLong (fun i => -(2 ^ 63) < i ∧ i < 2 ^ 63) ∧
    PrefixFree writeDouble (fun _ => True) ∧
    PrefixFree writeBoolean (fun _ => True) ∧
    PrefixFree writeString StrOK ∧
    PrefixFree writeByteArray (fun b => b.length ≤ 2 ^ 31) ∧
    PrefixFree writeVersion (fun v => 0 ≤ v.id ∧ v.id < 2 ^ 35) ∧
    PrefixFree writeTimeValue (fun v => -(2 ^ 63) < v.duration ∧ v.duration < 2 ^ 63) ∧
    PrefixFree writeByteSizeValue (fun v => -(2 ^ 63) < v.size ∧ v.size < 2 ^ 63) ∧
    PrefixFree (writeEnum (α := RestMethod)) (fun _ => True) ∧
    PrefixFree (writeEnum (α := RestStatus)) (fun _ => True) ∧
    PrefixFree (writeEnum (α := HttpVersion)) (fun _ => True) ∧
    PrefixFree writeStringArray StrsOK ∧
    PrefixFree writeStringDict StrDictOK ∧
    PrefixFree writeStringArrayDict StrsDictOK ∧
    PrefixFree writeGeneric GenericOK := by
  refine ⟨prefixFree_of fun _ h => rt_byte h.1 h.2, prefixFree_of fun _ h => rt_int h.1 h.2,
    prefixFree_of fun _ h => rt_long h.1 h.2, prefixFree_of (r := readVInt) fun a h => ?_,
    prefixFree_of (r := readVLong) fun a h => ?_, prefixFree_of fun _ h => rt_zlong h.1 h.2,
    prefixFree_of fun a _ => rt_double a,
    prefixFree_of fun a _ => rt_boolean a, prefixFree_of fun _ h => rt_string h,
    prefixFree_of fun _ h => rt_byteArray h, prefixFree_of fun _ h => rt_version h.1 h.2,
    prefixFree_of fun _ h => rt_timeValue h.1 h.2, prefixFree_of fun _ h => rt_byteSizeValue h.1 h.2,
    prefixFree_of fun a _ => rt_method a, prefixFree_of fun a _ => rt_status a,
    prefixFree_of fun a _ => rt_httpVersion a, prefixFree_of fun _ h => rt_stringArray h,
    prefixFree_of fun _ h => rt_stringDict h, prefixFree_of fun _ h => rt_stringArrayDict h, ?_⟩
  · obtain ⟨n, rfl⟩ := Int.eq_ofNat_of_zero_le h.1
    exact rt_vint (by omega)
  · obtain ⟨n, rfl⟩ := Int.eq_ofNat_of_zero_le h.1
    exact rt_vlong (by omega)
  · intro a b x y ha hb
    refine prefixFree_of (w := writeGeneric) (ok := fun v => GenericOK v ∧ nesting v ≤ max (nesting a) (nesting b))
      (r := readGeneric (max (nesting a) (nesting b)))
      (fun v h => rt_generic v _ h.1 h.2) a b x y ⟨ha, le_max_left _ _⟩ ⟨hb, le_max_right _ _⟩

/-- C81, messages. -/
theorem C81_messages :
    PrefixFree DiscoveryNode.writeTo NodeOK ∧
    PrefixFree DiscoveryExtensionNode.writeTo ExtensionNodeOK ∧
    PrefixFree InitializeExtensionRequest.writeTo
      (fun m => TaskIdOK m.parent_task_id ∧ NodeOK m.source_node ∧ ExtensionNodeOK m.extension) ∧
    PrefixFree InitializeExtensionResponse.writeTo (fun m => StrOK m.name ∧ StrsOK m.implemented_interfaces) ∧
    PrefixFree AcknowledgedResponse.writeTo (fun _ => True) ∧
    PrefixFree HandshakerResponse.writeTo (fun m => VersionOK m.version) ∧
    PrefixFree RegisterRestActionsRequest.writeTo
      (fun m => TaskIdOK m.parent_task_id ∧ m.rra.serialize.length < 2 ^ 31 ∧ ActionsUnknownOK m.rra) ∧
    PrefixFree ExtensionTransportRequest.writeTo
      (fun m => TaskIdOK m.parent_task_id ∧ (-(2 ^ 31) ≤ m.er.requestType ∧ m.er.requestType < 2 ^ 31) ∧
        m.er.serialize.length < 2 ^ 31 ∧ ExtensionUnknownOK m.er) ∧
    PrefixFree RestExecuteOnExtensionResponse.writeTo ExecuteOK ∧
    PrefixFree TcpHeader.writeTo (fun h => ∃ v, HeaderOK h v) :=
  ⟨prefixFree_of fun _ h => rt_node h, prefixFree_of fun _ h => rt_extensionNode h,
   prefixFree_of fun _ h => rt_initRequest h.1 h.2.1 h.2.2, prefixFree_of fun _ h => rt_initResponse h.1 h.2,
   prefixFree_of fun a _ => rt_ack a, prefixFree_of fun _ h => rt_handshakerResponse h,
   prefixFree_of fun _ h => rt_registerRestActions h.1 h.2.1 h.2.2,
   prefixFree_of fun _ h => rt_extensionTransport h.1 h.2.1.1 h.2.1.2 h.2.2.1 h.2.2.2,
   prefixFree_of fun _ h => rt_execute h, prefixFree_of fun _ h => rt_header h.choose_spec⟩

/-! ## C82: exactly which bytes the varint decoders accept -/

theorem vintLast_cons {i : Nat} (b : UInt8) (bs : Bytes) (hi : i < 2 ^ 28) :
    vintLast i (b :: bs) = if b.toNat < 128 then .ok (((i + b.toNat * 2 ^ 28 : Nat) : Int), bs)
      else .error .exception := by
  rw [vintLast, Reader.bind_ok (readByte_cons b bs)]
  simp only [low7_sbyte, more_sbyte, or_shiftLeft hi]
  by_cases h : b.toNat < 128
  · have : ¬ 128 ≤ b.toNat := by omega
    simp [h, this, Reader.pure_def, Nat.mod_eq_of_lt h]
  · have : 128 ≤ b.toNat := by omega
    simp [h, this]; rfl

theorem vlongLast_cons {i : Nat} (b : UInt8) (bs : Bytes) (hi : i < 2 ^ 63) :
    vlongLast i (b :: bs) = if b.toNat < 2 then .ok (((i + b.toNat * 2 ^ 63 : Nat) : Int), bs)
      else .error .exception := by
  rw [vlongLast, Reader.bind_ok (readByte_cons b bs)]
  unfold sbyte
  by_cases h : b.toNat < 2
  · have h1 : b.toNat < 128 := by omega
    simp only [h1, if_true, h, Int.toNat_natCast, or_shiftLeft hi]
    rw [if_neg (by omega)]; rfl
  · have hb := b.toNat_lt
    rw [if_neg h, if_pos (by split <;> omega)]; rfl

/-- `n` unrolled steps and what follows them. -/
def vsteps (last : Nat → Reader Int) : Nat → Nat → Nat → Reader Int
  | 0, _, i => last i
  | n + 1, sh, i => vstep sh i (vsteps last n (sh + 7))

theorem vsteps_run (last : Nat → Reader Int) (l : UInt8) (rest : Bytes) (hl : l.toNat < 128) :
    ∀ (n sh i : Nat) (gs : Bytes), i < 2 ^ sh → (∀ g ∈ gs, 128 ≤ g.toNat) →
    vsteps last n sh i (gs ++ l :: rest) =
      if gs.length < n then .ok (((i + varintValue (gs ++ [l]) * 2 ^ sh : Nat) : Int), rest)
      else last (i + varintValue (gs.take n) * 2 ^ sh) (gs.drop n ++ l :: rest)
  | 0, sh, i, gs, _, _ => by simp [vsteps, varintValue]
  | n + 1, sh, i, [], hi, _ => by
    rw [List.nil_append, vsteps, vstep_cons _ _ _ hi, if_pos hl]
    simp [varintValue, Nat.mod_eq_of_lt hl]
  | n + 1, sh, i, g :: gs, hi, hg => by
    have h1 := hg g (by simp)
    have hlt : g.toNat % 128 * 2 ^ sh + 2 ^ sh ≤ 128 * 2 ^ sh := by
      have : g.toNat % 128 + 1 ≤ 128 := by omega
      calc g.toNat % 128 * 2 ^ sh + 2 ^ sh = (g.toNat % 128 + 1) * 2 ^ sh := by ring
        _ ≤ 128 * 2 ^ sh := Nat.mul_le_mul_right _ this
    have e7 : 2 ^ (sh + 7) = 128 * 2 ^ sh := by rw [Nat.pow_add]; ring
    rw [List.cons_append, vsteps, vstep_cons _ _ _ hi, if_neg (by omega),
      vsteps_run last l rest hl n (sh + 7) _ gs (by omega) fun x hx => hg x (by simp [hx])]
    simp only [List.length_cons, Nat.add_lt_add_iff_right, List.take_succ_cons, List.drop_succ_cons,
      List.cons_append, varintValue, e7]
    split
    · congr 3; ring
    · congr 1; ring

theorem varintValue_append (gs hs : Bytes) :
    varintValue (gs ++ hs) = varintValue gs + 128 ^ gs.length * varintValue hs := by
  induction gs with
  | nil => simp [varintValue]
  | cons g gs ih => simp only [List.cons_append, varintValue, ih, List.length_cons]; ring

theorem varintValue_lt (gs : Bytes) : varintValue gs < 128 ^ gs.length := by
  induction gs with
  | nil => simp [varintValue]
  | cons g gs ih =>
    simp only [varintValue, List.length_cons, pow_succ]
    have := Nat.mod_lt g.toNat (show 0 < 128 by decide)
    omega

/-- C82, v_ints: what `read_v_int` makes of a run of continuation bytes `gs` and the byte that ends it: the number
they denote when there are at most four of them (padded, non-minimal encodings included); otherwise it raises. -/
theorem C82_vint (gs : Bytes) (last : UInt8) (rest : Bytes) (hg : ∀ g ∈ gs, 128 ≤ g.toNat) (hl : last.toNat < 128) :
    readVInt (gs ++ last :: rest) =
      if gs.length ≤ 4 then .ok ((varintValue (gs ++ [last]) : Int), rest) else .error .exception := by
  have h := vsteps_run vintLast last rest hl 4 0 0 gs (by decide) hg
  have e : readVInt = vsteps vintLast 4 0 0 := readVInt_steps
  rw [e, h]
  by_cases h1 : gs.length < 4
  · rw [if_pos h1, if_pos (by omega)]; simp
  rw [if_neg h1]
  have hv := varintValue_lt (gs.take 4)
  have ht : (gs.take 4).length = 4 := by simp; omega
  rw [ht] at hv
  by_cases h2 : gs.length = 4
  · rw [if_pos (by omega), List.drop_eq_nil_of_le (by omega), List.take_of_length_le (by omega)]
    rw [List.take_of_length_le (by omega)] at hv
    rw [List.nil_append, vintLast_cons _ _ (by omega), if_pos hl, varintValue_append, h2]
    simp only [varintValue, Nat.mod_eq_of_lt hl]
    congr 3; omega
  · rw [if_neg (by omega)]
    obtain ⟨g, gs', hd⟩ : ∃ g gs', gs.drop 4 = g :: gs' := by
      cases hc : gs.drop 4 with
      | nil => have := List.drop_eq_nil_iff.1 hc; omega
      | cons g gs' => exact ⟨g, gs', rfl⟩
    have hgm : g ∈ gs := List.mem_of_mem_drop (hd ▸ List.mem_cons_self : g ∈ gs.drop 4)
    have := hg g hgm
    rw [hd, List.cons_append, vintLast_cons _ _ (by omega), if_neg (by omega)]

example := C82_vint [0x85, 0x80] 7 [9] (by decide) (by decide)

/-- C82, v_longs: at most eight continuation bytes, or nine and a last byte 0 or 1 (so that the number fits 64
bits); otherwise it raises. -/
theorem C82_vlong (gs : Bytes) (last : UInt8) (rest : Bytes) (hg : ∀ g ∈ gs, 128 ≤ g.toNat) (hl : last.toNat < 128) :
    readVLong (gs ++ last :: rest) =
      if gs.length ≤ 8 ∨ gs.length = 9 ∧ last.toNat ≤ 1 then .ok ((varintValue (gs ++ [last]) : Int), rest)
      else .error .exception := by
  have h := vsteps_run vlongLast last rest hl 9 0 0 gs (by decide) hg
  have e : readVLong = vsteps vlongLast 9 0 0 := readVLong_steps
  rw [e, h]
  by_cases h1 : gs.length < 9
  · rw [if_pos h1, if_pos (by omega)]; simp
  rw [if_neg h1]
  have hv := varintValue_lt (gs.take 9)
  have ht : (gs.take 9).length = 9 := by simp; omega
  rw [ht] at hv
  by_cases h2 : gs.length = 9
  · rw [List.drop_eq_nil_of_le (by omega), List.take_of_length_le (by omega)]
    rw [List.take_of_length_le (by omega)] at hv
    rw [List.nil_append, vlongLast_cons _ _ (by omega), varintValue_append, h2]
    by_cases h3 : last.toNat < 2
    · rw [if_pos h3, if_pos (by omega)]
      simp only [varintValue, Nat.mod_eq_of_lt hl]
      congr 3; omega
    · rw [if_neg h3, if_neg (by omega)]
  · rw [if_neg (by omega)]
    obtain ⟨g, gs', hd⟩ : ∃ g gs', gs.drop 9 = g :: gs' := by
      cases hc : gs.drop 9 with
      | nil => have := List.drop_eq_nil_iff.1 hc; omega
      | cons g gs' => exact ⟨g, gs', rfl⟩
    have hgm : g ∈ gs := List.mem_of_mem_drop (hd ▸ List.mem_cons_self : g ∈ gs.drop 9)
    have := hg g hgm
    rw [hd, List.cons_append, vlongLast_cons _ _ (by omega), if_neg (by omega)]

example := C82_vlong [0x85, 0x80, 0x80, 0x80, 0x80, 0x80] 7 [9] (by decide) (by decide)

theorem vsteps_eof (last : Nat → Reader Int) :
    ∀ (n sh i : Nat) (gs : Bytes), i < 2 ^ sh → (∀ g ∈ gs, 128 ≤ g.toNat) →
    vsteps last n sh i gs =
      if gs.length < n then .ok (((i + varintValue gs * 2 ^ sh : Nat) : Int), [])
      else last (i + varintValue (gs.take n) * 2 ^ sh) (gs.drop n)
  | 0, sh, i, gs, _, _ => by simp [vsteps, varintValue]
  | n + 1, sh, i, [], hi, _ => by
    rw [vsteps, vstep_nil]
    simp [varintValue]
  | n + 1, sh, i, g :: gs, hi, hg => by
    have h1 := hg g (by simp)
    have hlt : g.toNat % 128 * 2 ^ sh + 2 ^ sh ≤ 128 * 2 ^ sh := by
      have : g.toNat % 128 + 1 ≤ 128 := by omega
      calc g.toNat % 128 * 2 ^ sh + 2 ^ sh = (g.toNat % 128 + 1) * 2 ^ sh := by ring
        _ ≤ 128 * 2 ^ sh := Nat.mul_le_mul_right _ this
    have e7 : 2 ^ (sh + 7) = 128 * 2 ^ sh := by rw [Nat.pow_add]; ring
    rw [vsteps, vstep_cons _ _ _ hi, if_neg (by omega),
      vsteps_eof last n (sh + 7) _ gs (by omega) fun x hx => hg x (by simp [hx])]
    simp only [List.length_cons, Nat.add_lt_add_iff_right, List.take_succ_cons, List.drop_succ_cons,
      varintValue, e7]
    split
    · congr 3; ring
    · congr 1; ring

/-- C82, inputs that end inside a varint: the groups that are there count (so a truncated number is not noticed);
five and ten continuation bytes raise. -/
theorem C82_truncated (gs : Bytes) (hg : ∀ g ∈ gs, 128 ≤ g.toNat) :
    readVInt gs = (if gs.length ≤ 4 then .ok ((varintValue gs : Int), []) else .error .exception) ∧
    readVLong gs = (if gs.length ≤ 9 then .ok ((varintValue gs : Int), []) else .error .exception) := by
  have e1 : readVInt = vsteps vintLast 4 0 0 := readVInt_steps
  have e2 : readVLong = vsteps vlongLast 9 0 0 := readVLong_steps
  have n1 : ∀ i, vintLast i [] = .ok ((i : Int), []) := fun i => by
    have h1 : low7 0 = 0 := by decide +kernel
    have h2 : more 0 = false := by decide +kernel
    rw [vintLast, Reader.bind_ok readByte_nil, h2, h1]; simp [Reader.pure_def]
  have n2 : ∀ i, vlongLast i [] = .ok ((i : Int), []) := fun i => by
    rw [vlongLast, Reader.bind_ok readByte_nil]; simp [Reader.pure_def]
  constructor
  · rw [e1, vsteps_eof _ 4 0 0 gs (by decide) hg]
    by_cases h1 : gs.length < 4
    · rw [if_pos h1, if_pos (by omega)]; simp
    rw [if_neg h1]
    have hv := varintValue_lt (gs.take 4)
    have ht : (gs.take 4).length = 4 := by simp; omega
    rw [ht] at hv
    cases hd : gs.drop 4 with
    | nil =>
      have := List.drop_eq_nil_iff.1 hd
      rw [n1, if_pos (by omega), List.take_of_length_le (by omega)]; simp
    | cons g gs' =>
      have h5 : 4 < gs.length := by
        by_contra hc; rw [List.drop_eq_nil_of_le (by omega)] at hd; cases hd
      have := hg g (List.mem_of_mem_drop (hd ▸ List.mem_cons_self : g ∈ gs.drop 4))
      rw [vintLast_cons _ _ (by omega), if_neg (by omega), if_neg (by omega)]
  · rw [e2, vsteps_eof _ 9 0 0 gs (by decide) hg]
    by_cases h1 : gs.length < 9
    · rw [if_pos h1, if_pos (by omega)]; simp
    rw [if_neg h1]
    have hv := varintValue_lt (gs.take 9)
    have ht : (gs.take 9).length = 9 := by simp; omega
    rw [ht] at hv
    cases hd : gs.drop 9 with
    | nil =>
      have := List.drop_eq_nil_iff.1 hd
      rw [n2, if_pos (by omega), List.take_of_length_le (by omega)]; simp
    | cons g gs' =>
      have h5 : 9 < gs.length := by
        by_contra hc; rw [List.drop_eq_nil_of_le (by omega)] at hd; cases hd
      have := hg g (List.mem_of_mem_drop (hd ▸ List.mem_cons_self : g ∈ gs.drop 9))
      rw [vlongLast_cons _ _ (by omega), if_neg (by omega), if_neg (by omega)]

example := C82_truncated [0x85, 0x80] (by decide)

/-- Every input is a run of continuation bytes, and then either nothing or a byte that ends the number. -/
theorem varint_split (input : Bytes) : ∃ gs, (∀ g ∈ gs, 128 ≤ g.toNat) ∧
    (input = gs ∨ ∃ last rest, input = gs ++ last :: rest ∧ last.toNat < 128) := by
  induction input with
  | nil => exact ⟨[], by simp, .inl rfl⟩
  | cons b bs ih =>
    by_cases h : b.toNat < 128
    · exact ⟨[], by simp, .inr ⟨b, bs, rfl, h⟩⟩
    · obtain ⟨gs, h1, h2⟩ := ih
      refine ⟨b :: gs, ?_, ?_⟩
      · intro g hg
        rcases List.mem_cons.1 hg with rfl | hg
        · omega
        · exact h1 g hg
      · rcases h2 with rfl | ⟨l, r, rfl, hl⟩
        · exact .inl rfl
        · exact .inr ⟨l, r, rfl, hl⟩

/-- C82: so what is returned is never negative and below 2^35 (2^64), whatever the bytes. -/
theorem C82_range (input rest : Bytes) (n : Int) :
    (readVInt input = .ok (n, rest) → 0 ≤ n ∧ n < 2 ^ 35) ∧
    (readVLong input = .ok (n, rest) → 0 ≤ n ∧ n < 2 ^ 64) := by
  obtain ⟨gs, hg, he | ⟨l, r, rfl, hl⟩⟩ := varint_split input
  · subst input
    obtain ⟨h1, h2⟩ := C82_truncated gs hg
    rw [h1, h2]
    have hv := varintValue_lt gs
    constructor
    · split
      · next h =>
        intro he; cases he
        have := Nat.pow_le_pow_right (show 0 < 128 by decide) h
        omega
      · intro he; cases he
    · split
      · next h =>
        intro he; cases he
        have := Nat.pow_le_pow_right (show 0 < 128 by decide) h
        omega
      · intro he; cases he
  · rw [C82_vint gs l r hg hl, C82_vlong gs l r hg hl]
    have hv := varintValue_lt gs
    rw [varintValue_append]
    simp only [varintValue, Nat.mod_eq_of_lt hl]
    constructor
    · split
      · next h =>
        intro he; cases he
        have := Nat.pow_le_pow_right (show 0 < 128 by decide) h
        have h3 : 128 ^ gs.length * (l.toNat + 128 * 0) ≤ 128 ^ 4 * 127 := Nat.mul_le_mul this (by omega)
        omega
      · intro he; cases he
    · split
      · next h =>
        intro he; cases he
        rcases h with h | ⟨h, hl1⟩
        · have := Nat.pow_le_pow_right (show 0 < 128 by decide) h
          have h3 : 128 ^ gs.length * (l.toNat + 128 * 0) ≤ 128 ^ 8 * 127 := Nat.mul_le_mul this (by omega)
          omega
        · rw [h] at hv ⊢
          omega
      · intro he; cases he

/-- A padded encoding of 5, and one that is too long. -/
example : readVInt ([0x85, 0x80, 0x80] ++ 0 :: [7]) = .ok (5, [7]) ∧
    readVInt ([0x85, 0x80, 0x80, 0x80, 0x80] ++ 0 :: [7]) = .error .exception := by decide +kernel

/-! ## C83: the type tags of generic values -/

theorem twos_unique {n : Nat} {bs : Bytes} {i j : Int} (hi : IsTwosComplement n bs i)
    (hj : IsTwosComplement n bs j) : i = j := by
  obtain ⟨-, a1, a2, a3⟩ := hi
  obtain ⟨-, b1, b2, b3⟩ := hj
  have he : i % 256 ^ n = j % 256 ^ n := a3.symm.trans b3
  obtain ⟨c, hc⟩ := Int.dvd_of_emod_eq_zero (Int.emod_eq_emod_iff_emod_sub_eq_zero.1 he)
  have hp : (0 : Int) < 256 ^ n := by positivity
  generalize (256 : Int) ^ n = N at *
  rcases lt_trichotomy c 0 with h | h | h
  · have := Int.mul_le_mul_of_nonneg_left (show c ≤ -1 by omega) (show 0 ≤ N by omega)
    omega
  · subst h; omega
  · have := Int.mul_le_mul_of_nonneg_left (show 1 ≤ c by omega) (show 0 ≤ N by omega)
    omega

/-- C83: what each type tag is followed by, for any remaining recursion limit of at least one call: -1 nothing
(None), 0 a string, 1 a 4-byte integer, 2 an 8-byte integer, 5 a boolean, 6 a byte array, 11 a 1-byte and 16 a
2-byte integer, 7 a v_int and that many tagged values. -/
theorem C83_tags (limit : Nat) (rest : Bytes) :
    readGeneric (limit + 1) (0xFF :: rest) = .ok (.none, rest) ∧
    (∀ s, StrOK s → readGeneric (limit + 1) (0 :: ((writeString s).out ++ rest)) = .ok (.str s, rest)) ∧
    (∀ bs i, IsTwosComplement 4 bs i → readGeneric (limit + 1) (1 :: (bs ++ rest)) = .ok (.int i, rest)) ∧
    (∀ bs i, IsTwosComplement 8 bs i → readGeneric (limit + 1) (2 :: (bs ++ rest)) = .ok (.int i, rest)) ∧
    (∀ b : Bool, readGeneric (limit + 1) (5 :: (if b then 1 else 0) :: rest) = .ok (.bool b, rest)) ∧
    (∀ b, b.length ≤ 2 ^ 31 →
      readGeneric (limit + 1) (6 :: ((writeVInt b.length).out ++ b ++ rest)) = .ok (.bytes b, rest)) ∧
    (∀ bs i, IsTwosComplement 1 bs i → readGeneric (limit + 1) (11 :: (bs ++ rest)) = .ok (.int i, rest)) ∧
    (∀ bs i, IsTwosComplement 2 bs i → readGeneric (limit + 1) (16 :: (bs ++ rest)) = .ok (.int i, rest)) ∧
    (∀ (parts : List (Bytes × PyVal)), parts.length < 2 ^ 35 →
      (∀ p ∈ parts, ∀ rest', readGeneric limit (p.1 ++ rest') = .ok (p.2, rest')) →
      readGeneric (limit + 1) (7 :: ((writeVInt parts.length).out ++ (parts.map (·.1)).flatten ++ rest)) =
        .ok (.list (parts.map (·.2)), rest)) := by
  have key : ∀ (t : UInt8) (bs : Bytes) (z : Int) (a : PyVal), sbyte t = z →
      (if z = -1 then (pure .none : Reader PyVal)
        else if z = 0 then do return .str (← readString)
        else if z = 1 then do return .int (← readInt)
        else if z = 2 then do return .int (← readLong)
        else if z = 5 then do return .bool (← readBoolean)
        else if z = 6 then do return .bytes (← readByteArray)
        else if z = 7 then do
          let n ← readVInt
          return .list (← (readGeneric limit).times n.toNat)
        else if z = 11 then do return .int (← readByte)
        else if z = 16 then do return .int (← readShort)
        else Reader.throw .exception) bs = .ok (a, rest) →
      readGeneric (limit + 1) (t :: bs) = .ok (a, rest) := by
    rintro t bs z a rfl h
    rw [readGeneric_succ, Reader.bind_ok (readByte_cons t bs)]
    exact h
  refine ⟨key 0xFF _ (-1) _ rfl rfl, fun s hs => key 0 _ 0 _ rfl (Reader.bind_ok ((rt_string hs).2 rest)),
    fun bs i hi => ?_, fun bs i hi => ?_, fun b => ?_,
    fun b hb => key 6 _ 6 _ rfl (Reader.bind_ok ?_), fun bs i hi => ?_, fun bs i hi => ?_, fun parts hp hps => ?_⟩
  · obtain ⟨j, h1, h2⟩ := (C01_read bs rest).2.2.1 hi.1
    rw [twos_unique h2 hi] at h1
    exact key 1 _ 1 _ rfl (Reader.bind_ok h1)
  · obtain ⟨j, h1, h2⟩ := (C01_read bs rest).2.2.2 hi.1
    rw [twos_unique h2 hi] at h1
    exact key 2 _ 2 _ rfl (Reader.bind_ok h1)
  · have := (rt_boolean b).2 rest
    refine key 5 _ 5 _ rfl (Reader.bind_ok (?_ : readBoolean _ = .ok (b, rest)))
    cases b <;> exact this
  · have h1 := (rt_byteArray hb).2 rest
    rw [writeByteArray, W.out_append (writeVInt_nat_err _), W.emit_out] at h1
    exact h1
  · obtain ⟨j, h1, h2⟩ := (C01_read bs rest).1 hi.1
    rw [twos_unique h2 hi] at h1
    exact key 11 _ 11 _ rfl (Reader.bind_ok h1)
  · obtain ⟨j, h1, h2⟩ := (C01_read bs rest).2.1 hi.1
    rw [twos_unique h2 hi] at h1
    exact key 16 _ 16 _ rfl (Reader.bind_ok h1)
  · have loop : ∀ parts : List (Bytes × PyVal),
        (∀ p ∈ parts, ∀ rest', readGeneric limit (p.1 ++ rest') = .ok (p.2, rest')) →
        (readGeneric limit).times parts.length ((parts.map (·.1)).flatten ++ rest) =
          .ok (parts.map (·.2), rest) := by
      intro parts
      induction parts with
      | nil => intro _; rfl
      | cons p ps ih =>
        intro h
        simp only [List.length_cons, List.map_cons, List.flatten_cons, List.append_assoc, Reader.times]
        rw [Reader.bind_ok (h p (by simp) _), Reader.bind_ok (ih fun q hq => h q (by simp [hq]))]
        rfl
    refine key 7 _ 7 _ rfl ?_
    rw [List.append_assoc]
    refine (Reader.bind_ok ((rt_vint hp).2 _)).trans ?_
    rw [Int.toNat_natCast]
    exact Reader.bind_ok (loop parts hps)

/-- C83: every other tag raises. -/
theorem C83_unknown (limit : Nat) (tag : UInt8) (rest : Bytes)
    (h : tag ∉ ([0xFF, 0, 1, 2, 5, 6, 7, 11, 16] : List UInt8)) :
    readGeneric (limit + 1) (tag :: rest) = .error .exception := by
  rw [readGeneric_succ, Reader.bind_ok (readByte_cons tag rest)]
  have hs : ∀ t : UInt8, sbyte tag = sbyte t → tag = t := by
    intro t ht
    unfold sbyte at ht
    apply UInt8.toNat_inj.1
    have := tag.toNat_lt; have := t.toNat_lt
    split at ht <;> split at ht <;> omega
  have no : ∀ (t : UInt8) (z : Int), z = sbyte t → t ∈ ([0xFF, 0, 1, 2, 5, 6, 7, 11, 16] : List UInt8) →
      sbyte tag ≠ z := by
    intro t z hz hm e
    exact h (hs t (e.trans hz) ▸ hm)
  rw [if_neg (no 0xFF (-1) rfl (by decide)), if_neg (no 0 0 rfl (by decide)), if_neg (no 1 1 rfl (by decide)),
    if_neg (no 2 2 rfl (by decide)), if_neg (no 5 5 rfl (by decide)), if_neg (no 6 6 rfl (by decide)),
    if_neg (no 7 7 rfl (by decide)), if_neg (no 11 11 rfl (by decide)), if_neg (no 16 16 rfl (by decide))]
  rfl

example := C83_unknown 5 3 [1, 2] (by decide)

end Verif
