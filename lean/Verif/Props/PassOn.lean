import Verif.Lemmas.PassOn
import Verif.Spec.Build
import Verif.Props.Proto
import Verif.Props.Parsers
import Verif.Lemmas.Local
/-!
# C129: whatever was read can be passed on

C129 quantifies over every byte string (sent by whatever peer, cut off anywhere): *if* the reader returns an object, the object
can be written, and the next reader gets the same object.
-/

namespace Verif
open Py StreamInput StreamOutput

theorem passesOn_of {α : Type} {r : Reader α} {w : α → W} {P : α → Prop} (h : r.Ensures P)
    (hw : ∀ a, P a → RoundTrips (w a) r a) : PassesOn r w := fun bs a rest hr => hw a (h bs a rest hr)

/-- C129, the values streams are made of: numbers, texts, arrays, dicts, versions, time and size values. -/
theorem C129_values :
    PassesOn readByte writeByte ∧ PassesOn readInt writeInt ∧ PassesOn readLong writeLong ∧ PassesOn readVInt writeVInt ∧
    PassesOn readVLong writeVLong ∧ PassesOn readZLong writeZLong ∧ PassesOn readBoolean writeBoolean ∧
    PassesOn readString writeString ∧ PassesOn readStringArray writeStringArray ∧ PassesOn readByteArray writeByteArray ∧
    PassesOn readStringDict writeStringDict ∧ PassesOn readStringArrayDict writeStringArrayDict ∧
    PassesOn readVersion writeVersion ∧ PassesOn readTimeValue writeTimeValue ∧
    PassesOn readByteSizeValue writeByteSizeValue ∧ PassesOn readDouble writeDouble := by
  refine ⟨passesOn_of ens_byte fun i h => rt_byte h.1 h.2, passesOn_of ens_int fun i h => rt_int h.1 h.2,
    passesOn_of ens_long fun i h => rt_long h.1 h.2, passesOn_of ens_vint fun i h => ?_, passesOn_of ens_vlong fun i h => ?_,
    passesOn_of ens_zlong fun i h => rt_zlong h.1 h.2, passesOn_of (Reader.Ensures.true _) fun b _ => rt_boolean b,
    passesOn_of ens_string fun s h => rt_string h, passesOn_of ens_stringArray fun l h => rt_stringArray h,
    passesOn_of ens_byteArray fun b h => rt_byteArray h, passesOn_of ens_stringDict fun d h => rt_stringDict h,
    passesOn_of ens_stringArrayDict fun d h => rt_stringArrayDict h, passesOn_of ens_version fun v h => rt_versionOK h,
    passesOn_of ens_timeValue fun v h => rt_timeValue h.1 h.2, passesOn_of ens_byteSizeValue fun v h => rt_byteSizeValue h.1 h.2,
    passesOn_of (Reader.Ensures.true _) fun x _ => rt_double x⟩
  · obtain ⟨n, rfl⟩ := Int.eq_ofNat_of_zero_le h.1
    exact rt_vint (by omega)
  · obtain ⟨n, rfl⟩ := Int.eq_ofNat_of_zero_le h.1
    exact rt_vlong (by omega)

/-- C129, nested generic values: a value that was read under the recursion limit can be written under the same limit. -/
theorem C129_generic (limit : Nat) : PassesOn (readGeneric limit) (writeGenericWithin limit) :=
  passesOn_of (ens_generic limit) fun v h => by
    rw [writeGenericWithin_eq limit v h.2]; exact rt_generic v limit h.1 h.2

/-- C129, the messages of the handshakes and of the initialisation. -/
theorem C129_messages :
    PassesOn TaskId.readFrom TaskId.writeTo ∧ PassesOn TransportAddress.readFrom TransportAddress.writeTo ∧
    PassesOn DiscoveryNode.readFrom DiscoveryNode.writeTo ∧
    PassesOn ExtensionDependency.readFrom ExtensionDependency.writeTo ∧
    PassesOn DiscoveryExtensionNode.readFrom DiscoveryExtensionNode.writeTo ∧
    PassesOn InitializeExtensionRequest.readFrom InitializeExtensionRequest.writeTo ∧
    PassesOn InitializeExtensionResponse.readFrom InitializeExtensionResponse.writeTo ∧
    PassesOn AcknowledgedResponse.readFrom AcknowledgedResponse.writeTo ∧
    PassesOn HandshakerRequest.readFrom HandshakerRequest.writeTo ∧
    PassesOn HandshakerResponse.readFrom HandshakerResponse.writeTo ∧
    PassesOn ServiceHandshakeRequest.readFrom ServiceHandshakeRequest.writeTo ∧
    PassesOn ServiceHandshakeResponse.readFrom ServiceHandshakeResponse.writeTo := by
  refine ⟨passesOn_of ens_taskId fun t h => rt_taskId h, passesOn_of ens_address fun t h => rt_address h,
    passesOn_of ens_node fun t h => rt_node h, passesOn_of ens_dependency fun t h => rt_dependency h,
    passesOn_of ens_extensionNode fun t h => rt_extensionNode h,
    passesOn_of (P := fun m => TaskIdOK m.parent_task_id ∧ NodeOK m.source_node ∧ ExtensionNodeOK m.extension) ?_
      fun m h => rt_initRequest h.1 h.2.1 h.2.2,
    passesOn_of (P := fun m => StrOK m.name ∧ StrsOK m.implemented_interfaces) ?_ fun m h => rt_initResponse h.1 h.2,
    passesOn_of (Reader.Ensures.true _) fun m _ => rt_ack m,
    passesOn_of (P := fun m => ∃ v, TaskIdOK m.parent_task_id ∧ m.version = some v ∧ VersionOK v) ?_ ?_,
    passesOn_of (P := fun m => VersionOK m.version) ?_ fun m h => rt_handshakerResponse h,
    passesOn_of (P := fun m => TaskIdOK m.parent_task_id) ?_ fun m h => rt_serviceRequest h,
    passesOn_of (P := fun m => (∀ n, m.discovery_node = some n → NodeOK n) ∧ StrOK m.cluster_name ∧ VersionOK m.version) ?_
      fun m h => rt_serviceResponse h.1 h.2.1 h.2.2⟩
  · exact Reader.Ensures.bind ens_taskId fun _ h1 => Reader.Ensures.bind ens_node fun _ h2 =>
      Reader.Ensures.bind ens_extensionNode fun _ h3 => Reader.Ensures.pure ⟨h1, h2, h3⟩
  · exact Reader.Ensures.bind ens_string fun _ h1 => Reader.Ensures.bind ens_stringArray fun _ h2 => Reader.Ensures.pure ⟨h1, h2⟩
  · exact Reader.Ensures.bind ens_taskId fun _ h1 => Reader.Ensures.bind' fun _ => Reader.Ensures.bind ens_version fun v h2 =>
      Reader.Ensures.pure ⟨v, h1, rfl, h2⟩
  · rintro m ⟨v, h1, h2, h3⟩
    exact rt_handshakerRequest h1 h2 h3
  · exact Reader.Ensures.bind ens_version fun _ h => Reader.Ensures.pure h
  · exact Reader.Ensures.bind ens_taskId fun _ h => Reader.Ensures.pure h
  · refine Reader.Ensures.bind' fun b => ?_
    have tail : ∀ o : Option DiscoveryNode, (∀ n, o = some n → NodeOK n) → (do
        let cluster_name ← readString
        let version ← readVersion
        pure (⟨o, cluster_name, version⟩ : ServiceHandshakeResponse) : Reader ServiceHandshakeResponse).Ensures
        fun m => (∀ n, m.discovery_node = some n → NodeOK n) ∧ StrOK m.cluster_name ∧ VersionOK m.version :=
      fun o h1 => Reader.Ensures.bind ens_string fun _ h2 =>
        Reader.Ensures.bind ens_version fun _ h3 => Reader.Ensures.pure ⟨h1, h2, h3⟩
    refine Reader.Ensures.ite (fun _ => ?_) fun _ => ?_
    · rw [map_eq_pure_bind]
      exact Reader.Ensures.bind (P := fun o => ∀ n, o = some n → NodeOK n)
        (Reader.Ensures.bind ens_node fun n hn => Reader.Ensures.pure (by rintro m ⟨⟩; exact hn)) tail
    · exact Reader.Ensures.bind (P := fun o => ∀ n, o = some n → NodeOK n) (Reader.Ensures.pure (by simp)) tail

/-- C129, REST requests and responses.  (A response to a REST handler's request keeps its consumed parameters as a set.) -/
theorem C129_rest :
    PassesOn (ExtensionRestRequest.readFrom {}) ExtensionRestRequest.writeTo ∧
    PassesOn RestExecuteOnExtensionResponse.readFrom RestExecuteOnExtensionResponse.writeTo ∧
    ∀ bs r rest, ExtensionRestResponse.readFrom bs = .ok (r, rest) →
      ∃ params, params.Perm r.consumed_params ∧
        RoundTrips r.writeTo ExtensionRestResponse.readFrom { r with consumed_params := params } := by
  refine ⟨passesOn_of (ens_restRequest {} (by decide +kernel)) ?_, passesOn_of ens_execute fun r h => rt_execute h,
    fun bs r rest h => ⟨_, sorted_perm _, rt_restResponse (ens_restResponse _ _ _ h)⟩⟩
  rintro r ⟨ok, h1, h2⟩
  refine (congrArg (RoundTrips r.writeTo (ExtensionRestRequest.readFrom {})) ?_).mp (rt_restRequest ok {})
  obtain ⟨t, m, uri, path, ps, hs, mt, c, pit, hv, cp, cc⟩ := r
  simp only at h1 h2 ⊢
  subst h1 h2
  congr 1
  split
  · next h => exact h.symm
  · rfl

/-- C129, the headers of a message, as a dict and as a dict of sets, in whatever order the sets are iterated. -/
theorem C129_context (ho : HashOrder) : ∀ bs c rest, ThreadContext.readFrom bs = .ok (c, rest) →
    ∃ c', RoundTrips (c.writeTo ho) ThreadContext.readFrom c' ∧ c'.request_headers = c.request_headers ∧
      List.Forall₂ (fun a b => a.1 = b.1 ∧ a.2.Perm b.2) c'.response_headers c.response_headers := by
  intro bs c rest h
  refine ⟨_, rt_ctx ho (ens_ctx _ _ _ h), rfl, ?_⟩
  unfold ThreadContext.iter
  simp only
  generalize c.response_headers = d
  induction d with
  | nil => exact List.Forall₂.nil
  | cons kv d ih => exact List.Forall₂.cons ⟨rfl, ho.perm _⟩ ih

/-- C129, the fixed header of a message, from two octets on (what is shorter has no room for the marker). -/
theorem C129_header : ∀ bs h rest, 2 ≤ bs.length → TcpHeader.readFrom bs = .ok (h, rest) →
    RoundTrips h.writeTo TcpHeader.readFrom h := by
  intro bs h rest hl hr
  obtain ⟨v, ok⟩ := header_ok hl hr
  exact rt_header ok

/-- C129, settings read into a process that has such settings already (or none), also if the reading raised half-way: what the
process has then can be written, and a process without settings that reads it has the same. -/
theorem C129_settings (limit : Nat) (d : Dict String PyVal) (hd : SettingsOK limit d) (bs : Bytes)
    (hl : (Settings.readFrom limit d bs).1.length < 2 ^ 35) :
    SettingsOK limit (Settings.readFrom limit d bs).1 ∧
    (Settings.writeToWithin limit (Settings.readFrom limit d bs).1).err = none ∧
    ∀ rest, Settings.readFrom limit [] ((Settings.writeToWithin limit (Settings.readFrom limit d bs).1).out ++ rest) =
      ((Settings.readFrom limit d bs).1, .ok rest) := by
  have ok : SettingsOK limit (Settings.readFrom limit d bs).1 := by
    refine ⟨?_, hl, ?_⟩ <;> unfold Settings.readFrom <;> split
    · exact hd.1
    · exact (settings_readLoop_ok _ _ _ _ hd.1 hd.2.2).1
    · exact hd.2.2
    · exact (settings_readLoop_ok _ _ _ _ hd.1 hd.2.2).2.1
  generalize (Settings.readFrom limit d bs).1 = d' at ok
  have e : Settings.writeToWithin limit d' = Settings.writeTo d' := by
    unfold Settings.writeToWithin Settings.writeTo
    have : ∀ l : List (String × PyVal), (∀ kv ∈ l, nesting kv.2 ≤ limit) →
        W.forEach (fun kv : String × PyVal => writeString kv.1 ++ writeGenericWithin limit kv.2) l =
        W.forEach (fun kv => writeString kv.1 ++ writeGeneric kv.2) l := by
      intro l
      induction l with
      | nil => intro _; simp only [W.forEach]
      | cons kv l ih =>
        intro h
        simp only [W.forEach]
        rw [writeGenericWithin_eq _ _ (h kv (by simp)), ih fun x hx => h x (by simp [hx])]
    rw [this d' fun kv hkv => (ok.2.2 kv hkv).2.2]
  rw [e]
  refine ⟨ok, settings_write_err ok, fun rest => ?_⟩
  rw [settings_read ok]
  have := Dict.ofItems_of_wf ok.1
  exact congrArg (·, _) this

theorem shorter_of {α : Type} {r : Reader α} (h : r.Local) {bs rest : Bytes} {a : α} (e : r bs = .ok (a, rest)) :
    rest.length ≤ bs.length := by
  obtain ⟨used, rfl, _⟩ := h _ _ _ e
  rw [List.length_append]; omega

theorem shorter_taskId {bs rest : Bytes} {t : TaskId} (h : TaskId.readFrom bs = .ok (t, rest)) : rest.length ≤ bs.length := by
  have := local_string
  have := local_long
  have : TaskId.readFrom.Local := by unfold TaskId.readFrom; local_reader
  exact shorter_of this h

theorem shorter_vint {bs rest : Bytes} {n : Int} (h : readVInt bs = .ok (n, rest)) : rest.length ≤ bs.length :=
  shorter_of local_vint h

/-- C129, the protocol-buffer messages (shorter than 2 GiB, the limit of the format). -/
theorem C129_protobuf :
    (∀ bs m rest, bs.length < 2 ^ 31 → RegisterRestActionsRequest.readFrom bs = .ok (m, rest) →
      RoundTrips m.writeTo RegisterRestActionsRequest.readFrom m) ∧
    (∀ bs m rest, bs.length < 2 ^ 31 - 11 → ExtensionTransportRequest.readFrom bs = .ok (m, rest) →
      RoundTrips m.writeTo ExtensionTransportRequest.readFrom m) := by
  have hlen : ∀ {n : Int} {a b c : Bytes}, readBytes n a = .ok (b, c) → b.length ≤ a.length := by
    intro n a b c h
    unfold readBytes at h
    split at h
    · cases h; exact le_refl _
    · have : (Except.ok (a.take n.toNat, a.drop n.toNat) : Except Err (Bytes × Bytes)) = .ok (b, c) := h
      cases this
      rw [List.length_take]; omega
  constructor
  · intro bs m rest hb h
    unfold RegisterRestActionsRequest.readFrom at h
    obtain ⟨t, i1, h1, h⟩ := Reader.bind_eq_ok.1 h
    obtain ⟨n, i2, h2, h⟩ := Reader.bind_eq_ok.1 h
    obtain ⟨b, i3, h3, h⟩ := Reader.bind_eq_ok.1 h
    obtain ⟨r, i4, h4, h⟩ := Reader.bind_eq_ok.1 h
    cases hp : RegisterRestActions.parse b with
    | none => rw [hp] at h4; cases h4
    | some r' =>
      rw [hp] at h4; cases h4; cases h
      have e1 := RegisterRestActions.parse_length hp
      have e2 := hlen h3
      have e3 := shorter_taskId h1
      have e4 := shorter_vint h2
      exact rt_registerRestActions (ens_taskId _ _ _ h1) (by simp only; omega) (RegisterRestActions.parse_foreign hp)
  · intro bs m rest hb h
    unfold ExtensionTransportRequest.readFrom at h
    obtain ⟨t, i1, h1, h⟩ := Reader.bind_eq_ok.1 h
    obtain ⟨n, i2, h2, h⟩ := Reader.bind_eq_ok.1 h
    obtain ⟨b, i3, h3, h⟩ := Reader.bind_eq_ok.1 h
    obtain ⟨r, i4, h4, h⟩ := Reader.bind_eq_ok.1 h
    cases hp : ExtensionRequest.parse b with
    | none => rw [hp] at h4; cases h4
    | some r' =>
      rw [hp] at h4; cases h4; cases h
      have e1 := ExtensionRequest.parse_length hp
      have e2 := hlen h3
      have e3 := shorter_taskId h1
      have e4 := shorter_vint h2
      obtain ⟨f1, f2, f3, f4⟩ := ExtensionRequest.parse_foreign hp
      exact rt_extensionTransport (ens_taskId _ _ _ h1) f3 f4 (by simp only; omega) ⟨f1, f2⟩

/-- A double that reading single precision can give, NaN included. -/
def Floated (x : F64) : Prop := ∃ (b : Nat) (h : b < 2 ^ 32), x = F64.ofSingle b h

theorem ens_float : readFloat.Ensures Floated := by
  unfold readFloat
  have hr : (readRaw 4).Ensures fun bs => bs.length = 4 := by
    unfold readRaw
    exact Reader.Ensures.bind' fun bs => Reader.Ensures.ite (fun h => Reader.Ensures.pure h) fun _ => Reader.Ensures.throw
  refine Reader.Ensures.bind hr fun bs hl => ?_
  have hlt : natOfBE bs < 2 ^ 32 := by
    have := natOfBE_lt bs
    rw [hl] at this
    omega
  intro i a rest h
  rw [dif_pos (F64.ofSingleBits_lt hlt)] at h
  cases h
  exact ⟨natOfBE bs, hlt, rfl⟩

theorem rt_floated {x : F64} (h : Floated x) : RoundTrips (writeFloat x) readFloat x := by
  obtain ⟨b, hb, rfl⟩ := h
  by_cases hn : b % 2 ^ 31 ≤ 255 * 2 ^ 23
  · exact rt_float (isSingle_iff.2 ⟨b, hb, hn, rfl⟩)
  · obtain ⟨s, hs, es⟩ : ∃ s, (s = 0 ∨ s = 2 ^ 31) ∧ (if (F64.ofSingle b hb).neg then 2 ^ 31 else 0) = s :=
      ⟨_, by split <;> simp, rfl⟩
    have hsb : s = if 2 ^ 31 ≤ b then 2 ^ 31 else 0 := by
      rw [← es, F64.neg_ofSingle]; simp only [decide_eq_true_eq]
    obtain ⟨f, hf⟩ : ∃ f, b % 2 ^ 31 % 2 ^ 22 = f := ⟨_, rfl⟩
    have hfl : f < 2 ^ 22 := by rw [← hf]; exact Nat.mod_lt _ (by decide)
    have hm : F64.magOfSingle (b % 2 ^ 31) = 2047 * 2 ^ 52 + 2 ^ 51 + f * 2 ^ 29 := by
      unfold F64.magOfSingle
      rw [if_neg (by omega), if_neg (by omega), if_neg (by omega), hf]
    have ht : (F64.ofSingle b hb).toSingle = .ok (s + 255 * 2 ^ 23 + 2 ^ 22 + f) := by
      unfold F64.toSingle
      simp only [F64.isNaN, F64.mag_ofSingle hb, hm, es]
      rw [if_pos (by simp only [decide_eq_true_eq]; omega)]
      congr 2
      omega
    have hb' : s + 255 * 2 ^ 23 + 2 ^ 22 + f < 2 ^ 32 := by omega
    have e : F64.ofSingle (s + 255 * 2 ^ 23 + 2 ^ 22 + f) hb' = F64.ofSingle b hb := by
      unfold F64.ofSingle
      congr 1
      unfold F64.ofSingleBits
      have e1 : (s + 255 * 2 ^ 23 + 2 ^ 22 + f) % 2 ^ 31 = 255 * 2 ^ 23 + 2 ^ 22 + f := by omega
      have e2 : (255 * 2 ^ 23 + 2 ^ 22 + f) % 2 ^ 22 = f := by omega
      have e3 : F64.magOfSingle (255 * 2 ^ 23 + 2 ^ 22 + f) = 2047 * 2 ^ 52 + 2 ^ 51 + f * 2 ^ 29 := by
        unfold F64.magOfSingle
        rw [if_neg (by omega), if_neg (by omega), if_neg (by omega), e2]
      have e4 : (2 ^ 31 ≤ s + 255 * 2 ^ 23 + 2 ^ 22 + f) ↔ 2 ^ 31 ≤ b := by
        by_cases hbb : 2 ^ 31 ≤ b
        · rw [if_pos hbb] at hsb; omega
        · rw [if_neg hbb] at hsb; omega
      rw [hm, e1, e3]
      simp only [e4]
    unfold writeFloat
    rw [ht]
    refine ⟨rfl, fun rest => ?_⟩
    simp only [W.emit_out]
    rw [readFloat_of_bits hb', e]

theorem ens_timeParser : TimeParser.readFrom.Ensures fun p => (-(2 ^ 63) < p.min_value.duration ∧ p.min_value.duration < 2 ^ 63) ∧
    (-(2 ^ 63) < p.max_value.duration ∧ p.max_value.duration < 2 ^ 63) ∧ StrOK p.key := by
  unfold TimeParser.readFrom
  refine Reader.Ensures.bind' fun hm => Reader.Ensures.bind ens_string fun k hk => Reader.Ensures.bind ens_timeValue fun mn h1 => ?_
  have tail : ∀ mx : TimeValue, (-(2 ^ 63) < mx.duration ∧ mx.duration < 2 ^ 63) → (do
      let is_filtered ← readBoolean
      pure (⟨mn, mx, k, is_filtered⟩ : TimeParser) : Reader TimeParser).Ensures
      fun p => (-(2 ^ 63) < p.min_value.duration ∧ p.min_value.duration < 2 ^ 63) ∧
        (-(2 ^ 63) < p.max_value.duration ∧ p.max_value.duration < 2 ^ 63) ∧ StrOK p.key :=
    fun mx h2 => Reader.Ensures.bind' fun _ => Reader.Ensures.pure ⟨h1, h2, hk⟩
  refine Reader.Ensures.ite (fun _ => Reader.Ensures.bind ens_timeValue tail) fun _ => ?_
  exact Reader.Ensures.bind (P := fun v => -(2 ^ 63) < v.duration ∧ v.duration < 2 ^ 63) (Reader.Ensures.pure (by decide)) tail

/-- C129, the parsers and validators of settings: an integer, long, float, double or byte-size parser, or a validator, is passed
on as it is; a time parser as one that accepts the same texts (a negative maximum becomes another one: both mean none). -/
theorem C129_parsers :
    PassesOn IntParser.readFrom IntParser.writeTo ∧ PassesOn IntParser.readLongFrom IntParser.writeLongTo ∧
    PassesOn FloatParser.readFloatFrom FloatParser.writeFloatTo ∧ PassesOn FloatParser.readDoubleFrom FloatParser.writeDoubleTo ∧
    PassesOn SizeParser.readFrom SizeParser.writeTo ∧ PassesOn RegexValidator.readFrom RegexValidator.writeTo ∧
    ∀ bs p rest, TimeParser.readFrom bs = .ok (p, rest) → ∃ p', RoundTrips p.writeTo TimeParser.readFrom p' ∧
      p'.min_value = p.min_value ∧ p'.key = p.key ∧ p'.is_filtered = p.is_filtered ∧
      (p'.max_value = p.max_value ∨ (p.max_value.duration < 0 ∧ p'.max_value.duration < 0)) ∧
      ∀ py s, p'.parse py s = p.parse py s := by
  refine ⟨passesOn_of (P := fun p => (-(2 ^ 31) ≤ p.min_value ∧ p.min_value < 2 ^ 31) ∧
      (-(2 ^ 31) ≤ p.max_value ∧ p.max_value < 2 ^ 31) ∧ StrOK p.key) ?_ ?_,
    passesOn_of (P := fun p => (-(2 ^ 63) ≤ p.min_value ∧ p.min_value < 2 ^ 63) ∧
      (-(2 ^ 63) ≤ p.max_value ∧ p.max_value < 2 ^ 63) ∧ StrOK p.key) ?_ ?_,
    passesOn_of (P := fun p => Floated p.min_value ∧ Floated p.max_value ∧ StrOK p.key) ?_ ?_,
    passesOn_of (P := fun p => StrOK p.key) ?_ fun p h => C59_double p h,
    passesOn_of (P := fun p => (-(2 ^ 63) < p.min_value.size ∧ p.min_value.size < 2 ^ 63) ∧
      (-(2 ^ 63) < p.max_value.size ∧ p.max_value.size < 2 ^ 63) ∧ StrOK p.key) ?_ ?_,
    passesOn_of (P := fun v => StrOK v.regex) ?_ fun v h => C59_regex v h, ?_⟩
  · exact Reader.Ensures.bind ens_int fun _ h1 => Reader.Ensures.bind ens_int fun _ h2 => Reader.Ensures.bind ens_string fun _ h3 =>
      Reader.Ensures.bind' fun _ => Reader.Ensures.pure ⟨h1, h2, h3⟩
  · rintro ⟨a, b, k, f⟩ ⟨h1, h2, h3⟩
    exact (rt_int h1.1 h1.2).seq <| (rt_int h2.1 h2.2).seq <| (rt_string h3).seq <|
      (rt_boolean _).map fun b' => (⟨a, b, k, b'⟩ : IntParser)
  · exact Reader.Ensures.bind ens_long fun _ h1 => Reader.Ensures.bind ens_long fun _ h2 =>
      Reader.Ensures.bind ens_string fun _ h3 => Reader.Ensures.bind' fun _ => Reader.Ensures.pure ⟨h1, h2, h3⟩
  · rintro ⟨a, b, k, f⟩ ⟨h1, h2, h3⟩
    exact (rt_long h1.1 h1.2).seq <| (rt_long h2.1 h2.2).seq <| (rt_string h3).seq <|
      (rt_boolean _).map fun b' => (⟨a, b, k, b'⟩ : IntParser)
  · exact Reader.Ensures.bind ens_float fun _ h1 => Reader.Ensures.bind ens_float fun _ h2 =>
      Reader.Ensures.bind ens_string fun _ h3 => Reader.Ensures.bind' fun _ => Reader.Ensures.pure ⟨h1, h2, h3⟩
  · rintro ⟨a, b, k, f⟩ ⟨h1, h2, h3⟩
    exact (rt_floated h1).seq <| (rt_floated h2).seq <| (rt_string h3).seq <|
      (rt_boolean _).map fun b' => (⟨a, b, k, b'⟩ : FloatParser)
  · exact Reader.Ensures.bind' fun _ => Reader.Ensures.bind' fun _ => Reader.Ensures.bind ens_string fun _ h3 =>
      Reader.Ensures.bind' fun _ => Reader.Ensures.pure h3
  · exact Reader.Ensures.bind ens_byteSizeValue fun _ h1 => Reader.Ensures.bind ens_byteSizeValue fun _ h2 =>
      Reader.Ensures.bind ens_string fun _ h3 => Reader.Ensures.pure ⟨h1, h2, h3⟩
  · rintro ⟨a, b, k⟩ ⟨h1, h2, h3⟩
    exact (rt_byteSizeValue h1.1 h1.2).seq <| (rt_byteSizeValue h2.1 h2.2).seq <|
      (rt_string h3).map fun k => (⟨a, b, k⟩ : SizeParser)
  · exact Reader.Ensures.bind ens_string fun _ h3 => Reader.Ensures.bind' fun _ => Reader.Ensures.pure h3
  · intro bs p rest h
    obtain ⟨h1, h2, h3⟩ := ens_timeParser _ _ _ h
    obtain ⟨mn, mx, key, f⟩ := p
    simp only at h1 h2 h3
    unfold TimeParser.writeTo TimeParser.readFrom
    by_cases h0 : 0 ≤ mx.duration
    · refine ⟨⟨mn, mx, key, f⟩, ?_, rfl, rfl, rfl, .inl rfl, fun _ _ => rfl⟩
      simp only [h0, decide_true, if_true]
      exact (rt_boolean _).seq <| (rt_string h3).seq <| (rt_timeValue h1.1 h1.2).seq <|
        (rt_timeValue h2.1 h2.2).seq <|
        (rt_boolean _).map fun b => (⟨mn, mx, key, b⟩ : TimeParser)
    · refine ⟨⟨mn, TimeParser.MINUS_ONE, key, f⟩, ?_, rfl, rfl, rfl, .inr ⟨by simp only; omega, by simp [TimeParser.MINUS_ONE]⟩, ?_⟩
      · simp only [h0, decide_false, Bool.false_eq_true, if_false]
        exact (rt_boolean _).seq <| (rt_string h3).seq <| (rt_timeValue h1.1 h1.2).seq <|
          (RoundTrips.pure _).seq <|
          (rt_boolean _).map fun b => (⟨mn, TimeParser.MINUS_ONE, key, b⟩ : TimeParser)
      · intro py s
        unfold TimeParser.parse
        congr 1
        funext v
        unfold TimeParser.boundsCheck
        simp [h0, TimeParser.MINUS_ONE]

/-! ## Writing within the recursion limit (C13) -/

theorem W_err_right {a b : W} {e : Err} (h : a.err = none) (hb : b.err = some e) : (a ++ b).err = some e := by
  rw [W.append_ok h]; exact hb

mutual
theorem within_deep : ∀ (limit : Nat) (v : PyVal), GenericOK v → limit < nesting v →
    (writeGenericWithin limit v).err = some .recursion
  | 0, v, _, _ => by rw [writeGenericWithin]; rfl
  | limit + 1, .list l, h, hd => by
    rw [GenericOK] at h
    rw [nesting] at hd
    rw [writeGenericWithin]
    refine W_err_right (by decide +kernel) (W_err_right (by simp) ?_)
    exact within_deep_list limit l h.2 (by omega)
  | limit + 1, .none, _, hd => by rw [nesting] at hd; omega; all_goals simp
  | limit + 1, .bool _, _, hd => by rw [nesting] at hd; omega; all_goals simp
  | limit + 1, .str _, _, hd => by rw [nesting] at hd; omega; all_goals simp
  | limit + 1, .int _, _, hd => by rw [nesting] at hd; omega; all_goals simp
  | limit + 1, .bytes _, _, hd => by rw [nesting] at hd; omega; all_goals simp
  | limit + 1, .other _ _, _, hd => by rw [nesting] at hd; omega; all_goals simp
theorem within_deep_list : ∀ (limit : Nat) (l : List PyVal), GenericsOK l → limit < nestings l →
    (writeGenericListWithin limit l).err = some .recursion
  | _, [], _, hd => by rw [nestings] at hd; omega
  | limit, v :: vs, h, hd => by
    rw [GenericsOK] at h
    rw [nestings] at hd
    rw [writeGenericListWithin]
    by_cases hv : limit < nesting v
    · rw [W.append_err (within_deep limit v h.1 hv)]
      exact within_deep limit v h.1 hv
    · refine W_err_right ?_ (within_deep_list limit vs h.2 (by omega))
      rw [writeGenericWithin_eq limit v (by omega)]
      exact (rt_generic v limit h.1 (by omega)).1
end

/-- C13, with the interpreter's recursion limit on the writing side too: what is nested no deeper is written as ever, and what is
nested deeper raises RecursionError. -/
theorem C13_write_within (v : PyVal) (limit : Nat) (h : GenericOK v) :
    (nesting v ≤ limit → RoundTrips (writeGenericWithin limit v) (readGeneric limit) v) ∧
    (limit < nesting v → (writeGenericWithin limit v).err = some .recursion) :=
  ⟨fun hd => by rw [writeGenericWithin_eq limit v hd]; exact rt_generic v limit h hd, within_deep limit v h⟩

example := C13_write_within (.list [.int 1, .list [.list [.str "x"]]]) 2 (by simp only [GenericOK, GenericsOK]; decide +kernel)

/-! ## Concrete cases: what peers send need not be what the SDK writes -/

/-- A number in more octets than it needs, then cut off: read all the same, and passed on as the SDK writes it. -/
example : readVInt [0x81, 0x80, 0x00, 7] = .ok (1, [7]) ∧ (writeVInt 1).out = [1] := by decide +kernel
example : RoundTrips (writeVInt 1) readVInt 1 :=
  C129_values.2.2.2.1 [0x81, 0x80, 0x00, 7] 1 [7] (by decide +kernel)
/-! A list of a byte and a short: passed on as longs. -/
set_option maxRecDepth 100000 in
theorem readGeneric_short_byte : readGeneric 2 [7, 2, 11, 5, 16, 0, 6] = .ok (.list [.int 5, .int 6], []) := by
  exact of_eq_true (eq_self (readGeneric 2 [7, 2, 11, 5, 16, 0, 6]))
example := C129_generic 2 [7, 2, 11, 5, 16, 0, 6] (.list [.int 5, .int 6]) [] readGeneric_short_byte
example : (writeGenericWithin 2 (.list [.int 5, .int 6])).out.length = 20 := by decide +kernel
example := C129_messages.1 [1, 97, 0, 0, 0, 0, 0, 0, 0, 5, 9] ⟨"a", some 5⟩ [9] (by decide +kernel)
example := C129_messages.2.1 [4, 127, 0, 0, 1, 1, 104, 0, 0, 35, 132] ⟨2130706433, "h", 9092⟩ [] (by decide +kernel)
example := C129_header [69, 83, 0, 0] ⟨[69, 83], 0, 0, .obj ⟨0⟩, 0, 0⟩ [] (by decide) (by decide +kernel)
/-- Two settings, the second of an unknown type: the first one is kept and can be passed on. -/
example : (Settings.readFrom 2 [("z", .bool true)] [2, 1, 97, 5, 1, 1, 98, 99]).1 = [("z", .bool true), ("a", .bool true)] := rfl
example := C129_settings 2 [("z", .bool true)] (by
  refine ⟨by simp [Dict.WF], by simp, ?_⟩
  simp only [List.mem_singleton, forall_eq, GenericOK, nesting]; decide +kernel) [2, 1, 97, 5, 1, 1, 98, 99]
  (by rw [show (Settings.readFrom 2 [("z", .bool true)] [2, 1, 97, 5, 1, 1, 98, 99]).1 =
    [("z", .bool true), ("a", .bool true)] from rfl]; decide)
example := C129_context idOrder [0, 0] {} [] (by decide +kernel)

end Verif
