import Verif.Model.Setting
import Verif.Model.Host
import Verif.Lemmas.Varint
import Verif.Spec.Decoding
/-!
# Decoders look at nothing beyond what they consume
-/

namespace Verif
open Py StreamInput

namespace Reader.Local

theorem pure {α : Type} (a : α) : (Pure.pure a : Reader α).Local := by
  intro input b rest h
  have : (Except.ok (a, input) : Except Err (α × Bytes)) = .ok (b, rest) := h
  cases this
  exact ⟨[], rfl, fun _ _ => rfl⟩

theorem throw {α : Type} (e : Err) : (Reader.throw e : Reader α).Local := by
  intro input b rest h; cases h

theorem bind {α β : Type} {r : Reader α} {f : α → Reader β} (h : r.Local) (h' : ∀ a, (f a).Local) :
    (r >>= f).Local := by
  intro input b rest hb
  obtain ⟨a, mid, h1, h2⟩ := Reader.bind_eq_ok.1 hb
  obtain ⟨u1, e1, k1⟩ := h _ _ _ h1
  obtain ⟨u2, e2, k2⟩ := h' a _ _ _ h2
  refine ⟨u1 ++ u2, by rw [e1, e2, List.append_assoc], fun hne rest' => ?_⟩
  have hm : mid ≠ [] := by rw [e2]; simp [hne]
  rw [List.append_assoc, Reader.bind_ok (k1 hm _), k2 hne]

theorem map {α β : Type} {r : Reader α} (f : α → β) (h : r.Local) : (f <$> r).Local := by
  have : (f <$> r) = r >>= fun a => Pure.pure (f a) := (bind_pure_comp f r).symm
  rw [this]; exact bind h fun a => pure _

theorem ite {α : Type} {c : Prop} [Decidable c] {r r' : Reader α} (h1 : r.Local) (h2 : r'.Local) :
    (if c then r else r').Local := by
  split <;> assumption

theorem times {α : Type} {r : Reader α} (h : r.Local) (n : Nat) : (r.times n).Local := by
  induction n with
  | zero => exact pure _
  | succ n ih => exact bind h fun a => bind ih fun as => pure _

theorem lift {α : Type} (x : Except Err α) : (Reader.lift x).Local := by
  cases x with
  | error e => exact throw e
  | ok a => exact pure a

end Reader.Local

theorem local_take (n : Nat) : (take n).Local := by
  intro input a rest h
  have : (Except.ok (input.take n, input.drop n) : Except Err (Bytes × Bytes)) = .ok (a, rest) := h
  cases this
  refine ⟨input.take n, (List.take_append_drop n input).symm, fun hne rest' => ?_⟩
  have hl : n < input.length := by
    by_contra hc
    exact hne (List.drop_eq_nil_of_le (by omega))
  have : (input.take n).length = n := by simp; omega
  have e1 : (input.take n ++ rest').take n = input.take n := List.take_left' this
  have e2 : (input.take n ++ rest').drop n = rest' := List.drop_left' this
  show Except.ok (_, _) = _
  rw [e1, e2]

theorem local_readBytes (n : Int) : (readBytes n).Local := by
  by_cases h : n < 0
  · intro input a rest hb
    unfold readBytes at hb
    rw [if_pos h] at hb
    cases hb
    exact ⟨input, by simp, fun hne => absurd rfl hne⟩
  · have : readBytes n = take n.toNat := by
      funext bs; unfold readBytes; rw [if_neg h]
    rw [this]; exact local_take _

/-- Closes goals about readers built from readers already known to be local. -/
macro "local_reader" : tactic => `(tactic| repeat' first
  | assumption
  | exact Reader.Local.pure _
  | exact Reader.Local.throw _
  | exact Reader.Local.lift _
  | exact local_take _
  | exact local_readBytes _
  | apply Reader.Local.bind
  | apply Reader.Local.map
  | apply Reader.Local.ite
  | apply Reader.Local.times
  | split
  | (intro _))

theorem local_byte : readByte.Local := by unfold readByte; local_reader
theorem local_int : readInt.Local := by unfold readInt; local_reader
theorem local_short : readShort.Local := by unfold readShort; local_reader
theorem local_long : readLong.Local := by unfold readLong; local_reader
theorem local_raw (n : Nat) : (readRaw n).Local := by unfold readRaw; local_reader
theorem local_boolean : readBoolean.Local := by
  have := local_byte; unfold readBoolean; local_reader
theorem local_optionalBoolean : readOptionalBoolean.Local := by
  have := local_byte; unfold readOptionalBoolean; local_reader
theorem local_vint : readVInt.Local := by
  have := local_byte; unfold readVInt; local_reader
theorem local_vlong : readVLong.Local := by
  have := local_byte; unfold readVLong; local_reader
theorem local_zlong : readZLong.Local := by
  have := local_vlong; unfold readZLong; local_reader
theorem local_arraySize : readArraySize.Local := by
  have := local_vint; unfold readArraySize; local_reader
theorem local_string : readString.Local := by
  have := local_arraySize; unfold readString decodeStr; local_reader
theorem local_stringArray : readStringArray.Local := by
  have := local_arraySize; have := local_string; unfold readStringArray; local_reader
theorem local_optionalInt : readOptionalInt.Local := by
  have := local_boolean; have := local_int; unfold readOptionalInt; local_reader
theorem local_optionalVLong : readOptionalVLong.Local := by
  have := local_boolean; have := local_vlong; unfold readOptionalVLong; local_reader
theorem local_optionalLong : readOptionalLong.Local := by
  have := local_boolean; have := local_long; unfold readOptionalLong; local_reader
theorem local_optionalString : readOptionalString.Local := by
  have := local_boolean; have := local_string; unfold readOptionalString; local_reader
theorem local_optionalStringArray : readOptionalStringArray.Local := by
  have := local_boolean; have := local_stringArray; unfold readOptionalStringArray; local_reader
theorem local_dict {α : Type} {v : Reader α} (h : v.Local) : (readDict v).Local := by
  have := local_vint; have := local_string; unfold readDict readItem; local_reader
theorem local_stringDict : readStringDict.Local := local_dict local_string
theorem local_stringArrayDict : readStringArrayDict.Local := local_dict local_stringArray
theorem local_stringSetDict : readStringSetDict.Local :=
  local_dict (by have := local_stringArray; local_reader)
theorem local_byteArray : readByteArray.Local := by
  have := local_arraySize; unfold readByteArray; local_reader
theorem local_generic (depth : Nat) : (readGeneric depth).Local := by
  have := local_byte; have := local_string; have := local_int; have := local_long; have := local_boolean
  have := local_byteArray; have := local_short; have := local_vint
  induction depth with
  | zero => unfold readGeneric; local_reader
  | succ d ih => unfold readGeneric; local_reader
theorem local_enum (α : Type) [PyEnum α] : (readEnum α).Local := by
  have := local_vint; unfold readEnum enumOf; local_reader
theorem local_timeValue : readTimeValue.Local := by
  have := local_zlong; have := local_enum TimeUnit; unfold readTimeValue; local_reader
theorem local_byteSizeValue : readByteSizeValue.Local := by
  have := local_zlong; have := local_enum ByteSizeUnit; unfold readByteSizeValue; local_reader
theorem local_version : readVersion.Local := by
  have := local_vint; unfold readVersion; local_reader
theorem local_header : TcpHeader.readFrom.Local := by
  have := local_int; have := local_long; have := local_byte; unfold TcpHeader.readFrom; local_reader
theorem local_context : ThreadContext.readFrom.Local := by
  have := local_stringDict; have := local_stringSetDict; unfold ThreadContext.readFrom; local_reader
theorem local_message (m : OutboundMessage) (h : Option TcpHeader) : (m.readFrom h).Local := by
  have := local_header; have := local_context; unfold OutboundMessage.readFrom; cases h <;> local_reader
theorem local_request (m : OutboundRequest) (h : Option TcpHeader) : (m.readFrom h).Local := by
  have := local_message; unfold OutboundRequest.readFrom
  refine .bind (local_message _ _) fun a => ?_
  local_reader
theorem local_response (m : OutboundResponse) (h : Option TcpHeader) : (m.readFrom h).Local := by
  unfold OutboundResponse.readFrom
  exact .bind (local_message _ _) fun a => .pure _
theorem local_taskId : TaskId.readFrom.Local := by
  have := local_string; have := local_long; unfold TaskId.readFrom; local_reader
theorem local_address : TransportAddress.readFrom.Local := by
  have := local_byte; have := local_int; have := local_string
  unfold TransportAddress.readFrom ipv4; local_reader
theorem local_role : DiscoveryNode.readRole.Local := by
  have := local_string; have := local_boolean; unfold DiscoveryNode.readRole; local_reader
theorem local_node : DiscoveryNode.readFrom.Local := by
  have := local_string; have := local_address; have := local_stringDict; have := local_vint
  have := local_role; have := local_version
  unfold DiscoveryNode.readFrom; local_reader
theorem local_dependency : ExtensionDependency.readFrom.Local := by
  have := local_string; have := local_version; unfold ExtensionDependency.readFrom; local_reader
theorem local_extensionNode : DiscoveryExtensionNode.readFrom.Local := by
  have := local_node; have := local_version; have := local_vint; have := local_dependency
  unfold DiscoveryExtensionNode.readFrom; local_reader
theorem local_initRequest : InitializeExtensionRequest.readFrom.Local := by
  have := local_taskId; have := local_node; have := local_extensionNode
  unfold InitializeExtensionRequest.readFrom; local_reader
theorem local_initResponse : InitializeExtensionResponse.readFrom.Local := by
  have := local_string; have := local_stringArray; unfold InitializeExtensionResponse.readFrom; local_reader
theorem local_ack : AcknowledgedResponse.readFrom.Local := by
  have := local_boolean; unfold AcknowledgedResponse.readFrom; local_reader
theorem local_handshakerRequest : HandshakerRequest.readFrom.Local := by
  have := local_taskId; have := local_vint; have := local_version
  unfold HandshakerRequest.readFrom; local_reader
theorem local_handshakerResponse : HandshakerResponse.readFrom.Local := by
  have := local_version; unfold HandshakerResponse.readFrom; local_reader
theorem local_serviceRequest : ServiceHandshakeRequest.readFrom.Local := by
  have := local_taskId; unfold ServiceHandshakeRequest.readFrom; local_reader
theorem local_serviceResponse : ServiceHandshakeResponse.readFrom.Local := by
  have := local_boolean; have := local_node; have := local_string; have := local_version
  unfold ServiceHandshakeResponse.readFrom; local_reader
theorem local_registerRestActions : RegisterRestActionsRequest.readFrom.Local := by
  have := local_taskId; have := local_vint; unfold RegisterRestActionsRequest.readFrom orDecodeError; local_reader
theorem local_extensionTransport : ExtensionTransportRequest.readFrom.Local := by
  have := local_taskId; have := local_vint; unfold ExtensionTransportRequest.readFrom orDecodeError; local_reader
theorem local_restRequest (r : ExtensionRestRequest) : (r.readFrom).Local := by
  have := local_taskId; have := local_enum RestMethod; have := local_string; have := local_stringDict
  have := local_stringArrayDict; have := local_boolean; have := local_arraySize; have := local_enum HttpVersion
  unfold ExtensionRestRequest.readFrom ExtensionRestRequest.readMediaType; local_reader
theorem local_restResponse : ExtensionRestResponse.readFrom.Local := by
  have := local_enum RestStatus; have := local_string; have := local_stringArrayDict
  have := local_arraySize; have := local_stringArray; have := local_boolean; have := local_byteArray
  unfold ExtensionRestResponse.readFrom; local_reader
theorem local_execute : RestExecuteOnExtensionResponse.readFrom.Local := by
  have := local_enum RestStatus; have := local_string; have := local_stringArrayDict
  have := local_arraySize; have := local_stringArray; have := local_boolean; have := local_byteArray
  unfold RestExecuteOnExtensionResponse.readFrom; local_reader
theorem local_double : readDouble.Local := by
  have := local_raw; unfold readDouble
  exact .bind (local_raw 8) fun bs => by split <;> local_reader
theorem local_float : readFloat.Local := by
  have := local_raw; unfold readFloat
  exact .bind (local_raw 4) fun bs => by split <;> local_reader
theorem local_intParser : IntParser.readFrom.Local := by
  have := local_int; have := local_string; have := local_boolean; unfold IntParser.readFrom; local_reader
theorem local_longParser : IntParser.readLongFrom.Local := by
  have := local_long; have := local_string; have := local_boolean; unfold IntParser.readLongFrom; local_reader
theorem local_doubleParser : FloatParser.readDoubleFrom.Local := by
  have := local_double; have := local_string; have := local_boolean; unfold FloatParser.readDoubleFrom; local_reader
theorem local_floatParser : FloatParser.readFloatFrom.Local := by
  have := local_float; have := local_string; have := local_boolean; unfold FloatParser.readFloatFrom; local_reader
theorem local_timeParser : TimeParser.readFrom.Local := by
  have := local_timeValue; have := local_string; have := local_boolean; unfold TimeParser.readFrom; local_reader
theorem local_sizeParser : SizeParser.readFrom.Local := by
  have := local_byteSizeValue; have := local_string; unfold SizeParser.readFrom; local_reader
theorem local_regex : RegexValidator.readFrom.Local := by
  have := local_string; have := local_boolean; unfold RegexValidator.readFrom; local_reader
end Verif
