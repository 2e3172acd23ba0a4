import Verif.Lemmas.Messages
import Verif.Props.Primitives
import Verif.Props.Version
/-!
# C25 - C28: task ids, addresses, nodes, handshake and initialisation messages
-/

namespace Verif
open Py StreamInput StreamOutput Spec

/-! ## C25 -/

/-- C25, round-trip. -/
theorem C25_roundtrip (t : TaskId) (h : TaskIdOK t) : RoundTrips t.writeTo TaskId.readFrom t := rt_taskId h

example := C25_roundtrip ⟨"node", some (-5)⟩ (by decide +kernel)

/-- C25, no number without a node: whatever is read, an empty node id has no number; and an empty
task id is written as the single byte 0, whatever number the object holds. -/
theorem C25_empty (bs rest : Bytes) (t : TaskId) (id : Option Int) :
    (TaskId.readFrom bs = .ok (t, rest) → (t.node_id = "" ↔ t.id = none)) ∧
    (⟨"", id⟩ : TaskId).writeTo = ⟨[0], none⟩ := by
  constructor
  · intro h
    unfold TaskId.readFrom at h
    rw [Reader.bind_eq_ok] at h
    obtain ⟨nid, mid, h1, h2⟩ := h
    by_cases hn : nid = ""
    · rw [if_neg (by simp [hn])] at h2
      have := (Except.ok.inj h2); cases this; simp [hn]
    · rw [if_pos hn, Reader.bind_eq_ok] at h2
      obtain ⟨i, mid2, _, h3⟩ := h2
      have := (Except.ok.inj h3); cases this; simp [hn]
  · unfold TaskId.writeTo; simp only [ne_eq, not_true_eq_false, if_false]; decide +kernel

/-- C25, a node without a number cannot be written. -/
theorem C25_missing_number_raises (nid : String) (h : nid ≠ "") :
    (⟨nid, none⟩ : TaskId).writeTo.err = some .attribute := by
  unfold TaskId.writeTo
  rw [if_pos h]
  have : (writeString nid).err = none := by
    unfold writeString; rw [W.err_append]; refine ⟨by simp, ?_⟩; split <;> rfl
  rw [W.append_ok this]; rfl

example := C25_missing_number_raises "node" (by decide)

example : TaskIdOK ⟨"node", some (-5)⟩ ∧ TaskIdOK ⟨"", none⟩ := by decide +kernel

/-! ## C26 -/

/-- C26, the part that holds: addresses below 128.0.0.0 round-trip. -/
theorem C26_partial (a : TransportAddress) (h : AddressOK a) :
    RoundTrips a.writeTo TransportAddress.readFrom a := rt_address h

example := C26_partial (TransportAddress.new (127 * 256 ^ 3 + 1) 1234 none) (by decide +kernel)

/-- C26 is violated by every address from 128.0.0.0 on: it cannot be written … -/
theorem C26_violated_write (a : TransportAddress) (h : 2 ^ 31 ≤ a.address) :
    a.writeTo = ⟨[4], some .overflow⟩ := by
  unfold TransportAddress.writeTo
  have h1 : writeByte 4 = ⟨[4], none⟩ := by decide +kernel
  have h2 : writeInt (a.address : Int) = ⟨[], some .overflow⟩ := (C01_overflow _).2.1 (Or.inr (by omega))
  rw [h1, h2]; rfl

example := C26_violated_write (TransportAddress.new (192 * 256 ^ 3 + 168 * 256 ^ 2 + 1) 1234 none) (by decide +kernel)

/-- … and cannot be read either, when a peer sends its four bytes (as a Java node does). -/
theorem C26_violated_read (bs rest : Bytes) (hl : bs.length = 4) (h : 2 ^ 31 ≤ beValue bs) :
    TransportAddress.readFrom (4 :: (bs ++ rest)) = .error .address := by
  unfold TransportAddress.readFrom
  have hb : readByte (4 :: (bs ++ rest)) = .ok (4, bs ++ rest) := by
    rw [readByte_cons]; rfl
  rw [Reader.bind_ok hb, if_neg (by decide)]
  obtain ⟨i, h1, h2⟩ := (C01_read bs rest).2.2.1 hl
  rw [Reader.bind_ok h1]
  apply Reader.bind_error
  have : i < 0 := by
    obtain ⟨_, h3, h4, h5⟩ := h2
    have : beValue bs < 256 ^ 4 := by rw [beValue_eq, ← hl]; exact natOfBE_lt bs
    by_contra hc
    rw [Int.emod_eq_of_lt (by omega) (by omega)] at h5
    omega
  unfold ipv4; rw [if_pos (Or.inl this)]; rfl

example := C26_violated_read [192, 168, 0, 1] [7] rfl (by decide)

/-- C26, the address length byte: anything but 4 is refused. -/
theorem C26_length_byte (b : UInt8) (rest : Bytes) (h : b ≠ 4) :
    TransportAddress.readFrom (b :: rest) = .error .exception := by
  unfold TransportAddress.readFrom
  rw [Reader.bind_ok (readByte_cons b rest), if_pos]; · rfl
  intro hc
  apply h
  unfold sbyte at hc
  have := b.toNat_lt
  apply UInt8.toNat_inj.1
  split at hc <;> simp <;> omega

example := C26_length_byte 16 [0, 0, 0, 1] (by decide)

/-- C26, defaults: the host name defaults to the dotted form of the address. -/
theorem C26_default_host (n : Nat) (p : Int) (h : String) :
    (TransportAddress.new n p none).host_name = dotted n ∧
    (TransportAddress.new n p (some h)).host_name = (if h = "" then dotted n else h) := by
  refine ⟨rfl, ?_⟩
  by_cases hh : h = "" <;> simp [TransportAddress.new, hh]

example : AddressOK (TransportAddress.new (127 * 256 ^ 3 + 1) 1234 none) := by decide +kernel
example : dotted (127 * 256 ^ 3 + 1) = "127.0.0.1" := by decide +kernel

/-! ## C27 -/

/-- C27, nodes. -/
theorem C27_node (n : DiscoveryNode) (h : NodeOK n) : RoundTrips n.writeTo DiscoveryNode.readFrom n :=
  rt_node h

example := C27_node (DiscoveryNode.new "hello-world" "hello-world" none none none
    (TransportAddress.new (127 * 256 ^ 3 + 1) 1234 none) [("k", "é")]
    [CLUSTER_MANAGER_ROLE, DATA_ROLE] none "AAAAAAAAAAAAAAAAAAAAAA") (by decide +kernel)

/-- C27, extension nodes. -/
theorem C27_extension_node (n : DiscoveryExtensionNode) (h : ExtensionNodeOK n) :
    RoundTrips n.writeTo DiscoveryExtensionNode.readFrom n := rt_extensionNode h

example := C27_extension_node { DiscoveryNode.new "hello-world" "hello-world" none none none
    (TransportAddress.new (127 * 256 ^ 3 + 1) 1234 none) [("k", "é")]
    [CLUSTER_MANAGER_ROLE, DATA_ROLE] none "AAAAAAAAAAAAAAAAAAAAAA" with
      minimum_compatible_version := Version.new 3000099, dependencies := [⟨"other", Version.new 2000099⟩] } (by decide +kernel)

/-- C27, reading alone: whatever is read, the roles are pairwise distinct and the attributes form a
dict. -/
theorem C27_read_wellformed (bs rest : Bytes) (n : DiscoveryNode)
    (h : DiscoveryNode.readFrom bs = .ok (n, rest)) : n.roles.Nodup ∧ n.attributes.WF := by
  unfold DiscoveryNode.readFrom readStringDict readDict at h
  simp only [bind_assoc, pure_bind, Reader.bind_eq_ok] at h
  obtain ⟨_, _, _, _, _, _, _, _, _, _, _, _, _, _, _, _, _, _, _, _, _, items, _, _, _, _, _, roles, _, _, _, _, _, he⟩ := h
  have := (Except.ok.inj he); cases this
  exact ⟨pySet_nodup _, Dict.ofItems_wf _⟩

example : NodeOK (DiscoveryNode.new "hello-world" "hello-world" none none none
    (TransportAddress.new (127 * 256 ^ 3 + 1) 1234 none) [("k", "é")]
    [CLUSTER_MANAGER_ROLE, DATA_ROLE] none "AAAAAAAAAAAAAAAAAAAAAA") := by decide +kernel

/-- C27: the built-in roles are found by name, each under its own name and nothing else. -/
theorem C27_builtin_roles (name : String) (role : Role) :
    roleDict.get? name = some role ↔ role ∈ knownRoles ∧ role.1 = name := by
  have e : roleDict = knownRoles.map fun r => (r.1, r) := by decide +kernel
  have hw : Dict.WF roleDict := by unfold Dict.WF; decide +kernel
  constructor
  · intro h
    have := Dict.get?_mem h
    rw [e, List.mem_map] at this
    obtain ⟨r, hr, he⟩ := this
    cases he
    exact ⟨hr, rfl⟩
  · rintro ⟨h, rfl⟩
    refine Dict.get?_of_mem hw ?_
    rw [e]
    exact List.mem_map.2 ⟨role, h, rfl⟩

/-! ## C28 -/

theorem C28_init_request (m : InitializeExtensionRequest) (h1 : TaskIdOK m.parent_task_id)
    (h2 : NodeOK m.source_node) (h3 : ExtensionNodeOK m.extension) :
    RoundTrips m.writeTo InitializeExtensionRequest.readFrom m := rt_initRequest h1 h2 h3

example := C28_init_request ⟨⟨"node", some 5⟩, DiscoveryNode.new "n" "i" none none none
    (TransportAddress.new (127 * 256 ^ 3 + 1) 1234 none) [("k", "é")] [DATA_ROLE] none "AAAAAAAAAAAAAAAAAAAAAA",
    { DiscoveryNode.new "hello-world" "hello-world" none none none
        (TransportAddress.new (127 * 256 ^ 3 + 1) 1235 none) [] [] none "AAAAAAAAAAAAAAAAAAAAAB" with
      minimum_compatible_version := Version.new 3000099, dependencies := [] }⟩
  (by decide +kernel) (by decide +kernel) (by decide +kernel)

theorem C28_init_response (m : InitializeExtensionResponse) (h1 : StrOK m.name)
    (h2 : StrsOK m.implemented_interfaces) :
    RoundTrips m.writeTo InitializeExtensionResponse.readFrom m := rt_initResponse h1 h2

example := C28_init_response ⟨"hello", ["Extension", "ActionExtension"]⟩ (by decide +kernel) (by decide +kernel)

theorem C28_acknowledged (m : AcknowledgedResponse) :
    RoundTrips m.writeTo AcknowledgedResponse.readFrom m := rt_ack m

/-- A TCP handshake request that carries a version. -/
theorem C28_tcp_handshake_request (t : TaskId) (v : Version) (h1 : TaskIdOK t) (h2 : VersionOK v) :
    RoundTrips (⟨t, some v⟩ : HandshakerRequest).writeTo HandshakerRequest.readFrom ⟨t, some v⟩ :=
  rt_handshakerRequest (v := v) h1 rfl h2

example := C28_tcp_handshake_request ⟨"node", some 5⟩ (Version.new 3000099) (by decide +kernel) (by decide +kernel)

/-- What is left out of the round-trip: a TCP handshake request without a version. It writes its task
id and nothing else, neither a length nor a version, and what it wrote is read back, alone, as a
request for version 0 (the integers read at the end of the input are 0). -/
theorem C28_tcp_handshake_without_version (t : TaskId) (h : TaskIdOK t) :
    (⟨t, none⟩ : HandshakerRequest).writeTo.out = t.writeTo.out ∧
    (⟨t, none⟩ : HandshakerRequest).writeTo.err = none ∧
    HandshakerRequest.readFrom (⟨t, none⟩ : HandshakerRequest).writeTo.out =
      .ok (⟨t, some ⟨0⟩⟩, []) := by
  have h1 : (⟨t, none⟩ : HandshakerRequest).writeTo.out = t.writeTo.out := by
    unfold HandshakerRequest.writeTo
    simp only
    rw [W.out_append (rt_taskId h).1]
    exact List.append_nil _
  refine ⟨h1, ?_, ?_⟩
  · unfold HandshakerRequest.writeTo
    simp only
    rw [W.err_append, (rt_taskId h).1]
    exact ⟨rfl, rfl⟩
  · rw [h1]
    have h2 := (rt_taskId h).2 []
    rw [List.append_nil] at h2
    unfold HandshakerRequest.readFrom
    rw [Reader.bind_ok h2]
    rfl

example := C28_tcp_handshake_without_version ⟨"node", some 5⟩ (by decide +kernel)

/-- The length prefix of a TCP handshake request is right for every release number (see C18): after
the task id come the prefix byte and that many bytes of version. -/
theorem C28_tcp_handshake_prefix (t : TaskId) (n : Nat) (h1 : TaskIdOK t) (hn : n < 2 ^ 27) :
    ∃ len body : Bytes, (⟨t, some (Version.new n)⟩ : HandshakerRequest).writeTo.out =
      t.writeTo.out ++ len ++ body ∧ readVInt len = .ok ((body.length : Int), []) := by
  have hs := (C18_release_numbers n hn).1
  have hx : n ^^^ 0x08000000 < 2 ^ 28 := Nat.xor_lt_two_pow (by omega) (by decide)
  have hv : VersionOK (Version.new n) := by
    rw [version_new_nat]; exact ⟨by simp, by show ((_ : Nat) : Int) < _; omega⟩
  refine ⟨(writeVInt (versionSize (Version.new n))).out, (writeVersion (Version.new n)).out, ?_, ?_⟩
  · unfold HandshakerRequest.writeTo
    simp only
    rw [W.out_append (rt_taskId h1).1, W.out_append (by simp), List.append_assoc]
  · have := (rt_vint (versionSize_lt _ hv)).2 []
    rw [List.append_nil] at this
    rw [this, hs]

example := C28_tcp_handshake_prefix ⟨"node", some 5⟩ 3000099 (by decide +kernel) (by decide)

theorem C28_tcp_handshake_response (m : HandshakerResponse) (h : VersionOK m.version) :
    RoundTrips m.writeTo HandshakerResponse.readFrom m := rt_handshakerResponse h

example := C28_tcp_handshake_response ⟨Version.new 3000099⟩ (by decide +kernel)

theorem C28_handshake_request (m : ServiceHandshakeRequest) (h : TaskIdOK m.parent_task_id) :
    RoundTrips m.writeTo ServiceHandshakeRequest.readFrom m := rt_serviceRequest h

example := C28_handshake_request ⟨⟨"node", some 5⟩⟩ (by decide +kernel)

theorem C28_handshake_response (m : ServiceHandshakeResponse)
    (h1 : ∀ n, m.discovery_node = some n → NodeOK n) (h2 : StrOK m.cluster_name)
    (h3 : VersionOK m.version) : RoundTrips m.writeTo ServiceHandshakeResponse.readFrom m :=
  rt_serviceResponse h1 h2 h3

example := C28_handshake_response ⟨none, "cluster", Version.new 3000099⟩ (by decide +kernel) (by decide +kernel)
  (by decide +kernel)

/-- Environment settings, read into an empty dict (the first `Settings()` of the process; see C52
for what happens later). -/
theorem C28_environment_settings (depth : Nat) (d : Dict String PyVal) (h : SettingsOK depth d)
    (rest : Bytes) :
    (Settings.writeTo d).err = none ∧
    Settings.readFrom depth [] ((Settings.writeTo d).out ++ rest) = (d, .ok rest) := by
  refine ⟨settings_write_err h, ?_⟩
  rw [settings_read h]
  have := Dict.ofItems_of_wf h.1
  unfold Dict.ofItems at this
  rw [this]

example := C28_environment_settings 3 [("a", .list [.int 5, .none]), ("b", .str "é")] (by
  refine ⟨by decide +kernel, by decide, ?_⟩
  simp [GenericOK, GenericsOK, nesting, nestings]
  decide +kernel) [1]

example : SettingsOK 3 [("a", .list [.int 5, .none]), ("b", .str "é")] := by
  refine ⟨by decide +kernel, by decide, ?_⟩
  simp [GenericOK, GenericsOK, nesting, nestings]
  decide +kernel

end Verif
