import Verif.Spec.Domains
import Verif.Lemmas.Values
import Verif.Lemmas.VarintSpec
import Mathlib.Tactic.NormNum
import Verif.Model.Messages
import Verif.Model.Settings
/-! Round-trip lemmas for the message classes. -/

namespace Verif
open Py StreamInput StreamOutput

instance (v : Version) : Decidable (VersionOK v) := inferInstanceAs (Decidable (_ ∧ _))
instance (t : TaskId) : Decidable (TaskIdOK t) := by
  unfold TaskIdOK; cases t.id <;> exact inferInstanceAs (Decidable (_ ∧ _))
instance (a : TransportAddress) : Decidable (AddressOK a) := inferInstanceAs (Decidable (_ ∧ _))
instance (r : Role) : Decidable (RoleOK r) := inferInstanceAs (Decidable (_ ∧ _))
instance (n : DiscoveryNode) : Decidable (NodeOK n) :=
  inferInstanceAs (Decidable (_ ∧ _ ∧ _ ∧ _ ∧ _ ∧ _ ∧ _ ∧ (_ ∧ _ ∧ _) ∧ _))
instance (d : ExtensionDependency) : Decidable (DependencyOK d) := inferInstanceAs (Decidable (_ ∧ _))
instance (n : DiscoveryExtensionNode) : Decidable (ExtensionNodeOK n) :=
  inferInstanceAs (Decidable (_ ∧ _ ∧ _ ∧ _))

theorem rt_versionOK {v : Version} (h : VersionOK v) : RoundTrips (writeVersion v) readVersion v :=
  rt_version h.1 h.2

theorem rt_taskId {t : TaskId} (h : TaskIdOK t) : RoundTrips t.writeTo TaskId.readFrom t := by
  obtain ⟨nid, id⟩ := t
  obtain ⟨h1, h2⟩ := h
  unfold TaskId.writeTo TaskId.readFrom
  refine (rt_string h1).seq ?_
  cases id with
  | none =>
    simp only at h2 ⊢
    rw [if_neg (by simp [h2]), if_neg (by simp [h2])]
    exact RoundTrips.pure _
  | some i =>
    simp only at h2 ⊢
    rw [if_pos h2.1, if_pos h2.1]
    exact (rt_long h2.2.1 h2.2.2).map fun i => (⟨nid, some i⟩ : TaskId)

theorem rt_address {a : TransportAddress} (h : AddressOK a) :
    RoundTrips a.writeTo TransportAddress.readFrom a := by
  obtain ⟨h1, h2, h3, h4⟩ := h
  unfold TransportAddress.writeTo TransportAddress.readFrom
  refine (rt_byte (i := 4) (by decide) (by decide)).seq ?_
  rw [if_neg (by decide)]
  refine (rt_int (i := (a.address : Int)) (by omega) (by omega)).seq ?_
  have : ipv4 (a.address : Int) = pure a.address := by
    unfold ipv4; rw [if_neg (by omega)]; simp
  rw [this, pure_bind]
  refine (rt_string h2).seq ?_
  exact (rt_int h3 h4).map fun p => (⟨a.address, a.host_name, p⟩ : TransportAddress)

theorem rt_role {r : Role} (h : RoleOK r) : RoundTrips (DiscoveryNode.writeRole r) DiscoveryNode.readRole r := by
  unfold DiscoveryNode.writeRole DiscoveryNode.readRole
  refine (rt_string h.1).seq ((rt_string h.2).seq ?_)
  exact (rt_boolean r.2.2).map fun c => ((r.1, r.2.1, c) : Role)

theorem rt_node {n : DiscoveryNode} (h : NodeOK n) : RoundTrips n.writeTo DiscoveryNode.readFrom n := by
  obtain ⟨h1, h2, h3, h4, h5, h6, h7, ⟨h8, h9, h10⟩, h11⟩ := h
  unfold DiscoveryNode.writeTo DiscoveryNode.readFrom
  refine (rt_string h1).seq ((rt_string h2).seq ((rt_string h3).seq ((rt_string h4).seq
    ((rt_string h5).seq ((rt_address h6).seq ((rt_stringDict h7).seq ((rt_vint h8).seq ?_)))))))
  have hr : RoundTrips (W.forEach DiscoveryNode.writeRole n.roles)
      (DiscoveryNode.readRole.times n.roles.length) n.roles := by
    have := RoundTrips.forEach (wf := DiscoveryNode.writeRole) (r := DiscoveryNode.readRole) (g := id)
      (l := n.roles) fun r hr => rt_role (h10 r hr)
    simpa using this
  rw [Int.toNat_natCast]
  refine hr.seq ?_
  have := (rt_versionOK h11).map fun v => (⟨n.node_name, n.node_id, n.ephemeral_id, n.host_name,
    n.host_address, n.address, n.attributes, pySet n.roles, v⟩ : DiscoveryNode)
  rw [pySet_of_nodup h9] at this ⊢
  exact this

theorem rt_dependency {d : ExtensionDependency} (h : DependencyOK d) :
    RoundTrips d.writeTo ExtensionDependency.readFrom d := by
  unfold ExtensionDependency.writeTo ExtensionDependency.readFrom
  refine (rt_string h.1).seq ?_
  exact (rt_versionOK h.2).map fun v => (⟨d.unique_id, v⟩ : ExtensionDependency)

theorem rt_extensionNode {n : DiscoveryExtensionNode} (h : ExtensionNodeOK n) :
    RoundTrips n.writeTo DiscoveryExtensionNode.readFrom n := by
  obtain ⟨h1, h2, h3, h4⟩ := h
  unfold DiscoveryExtensionNode.writeTo DiscoveryExtensionNode.readFrom
  refine (rt_node h1).seq ((rt_versionOK h2).seq ((rt_vint h3).seq ?_))
  have hr : RoundTrips (W.forEach ExtensionDependency.writeTo n.dependencies)
      (ExtensionDependency.readFrom.times n.dependencies.length) n.dependencies := by
    have := RoundTrips.forEach (wf := ExtensionDependency.writeTo) (r := ExtensionDependency.readFrom)
      (g := id) (l := n.dependencies) fun d hd => rt_dependency (h4 d hd)
    simpa using this
  rw [Int.toNat_natCast]
  exact hr.map fun ds => ({ n.toDiscoveryNode with
    minimum_compatible_version := n.minimum_compatible_version, dependencies := ds } : DiscoveryExtensionNode)

theorem rt_initRequest {m : InitializeExtensionRequest} (h1 : TaskIdOK m.parent_task_id)
    (h2 : NodeOK m.source_node) (h3 : ExtensionNodeOK m.extension) :
    RoundTrips m.writeTo InitializeExtensionRequest.readFrom m := by
  unfold InitializeExtensionRequest.writeTo InitializeExtensionRequest.readFrom
  refine (rt_taskId h1).seq ((rt_node h2).seq ?_)
  exact (rt_extensionNode h3).map fun e => (⟨m.parent_task_id, m.source_node, e⟩ : InitializeExtensionRequest)

theorem rt_initResponse {m : InitializeExtensionResponse} (h1 : StrOK m.name)
    (h2 : StrsOK m.implemented_interfaces) :
    RoundTrips m.writeTo InitializeExtensionResponse.readFrom m := by
  unfold InitializeExtensionResponse.writeTo InitializeExtensionResponse.readFrom
  refine (rt_string h1).seq ?_
  exact (rt_stringArray h2).map fun e => (⟨m.name, e⟩ : InitializeExtensionResponse)

theorem rt_ack (m : AcknowledgedResponse) : RoundTrips m.writeTo AcknowledgedResponse.readFrom m := by
  unfold AcknowledgedResponse.writeTo AcknowledgedResponse.readFrom
  exact (rt_boolean m.status).map fun s => (⟨s⟩ : AcknowledgedResponse)

theorem versionSize_lt (v : Version) (h : VersionOK v) : versionSize v < 2 ^ 35 := by
  unfold versionSize
  split
  · decide
  · obtain ⟨n, hn⟩ : ∃ n : Nat, v.id = n := ⟨v.id.toNat, by have := h.1; omega⟩
    rw [hn, vIntSize_nat]
    have h2 : n < 2 ^ 35 := by have := h.2; omega
    have := (varint_length_le 4 n).2 (by norm_num; exact h2)
    omega

theorem rt_handshakerRequest {m : HandshakerRequest} {v : Version} (h1 : TaskIdOK m.parent_task_id)
    (hv : m.version = some v) (h2 : VersionOK v) : RoundTrips m.writeTo HandshakerRequest.readFrom m := by
  obtain ⟨t, ver⟩ := m
  subst hv
  unfold HandshakerRequest.writeTo HandshakerRequest.readFrom
  refine (rt_taskId h1).seq ?_
  refine (rt_vint (versionSize_lt v h2)).seq ?_
  exact (rt_versionOK h2).map fun v => (⟨t, some v⟩ : HandshakerRequest)

theorem rt_handshakerResponse {m : HandshakerResponse} (h : VersionOK m.version) :
    RoundTrips m.writeTo HandshakerResponse.readFrom m := by
  unfold HandshakerResponse.writeTo HandshakerResponse.readFrom
  exact (rt_versionOK h).map fun v => (⟨v⟩ : HandshakerResponse)

theorem rt_serviceRequest {m : ServiceHandshakeRequest} (h : TaskIdOK m.parent_task_id) :
    RoundTrips m.writeTo ServiceHandshakeRequest.readFrom m := by
  unfold ServiceHandshakeRequest.writeTo ServiceHandshakeRequest.readFrom
  exact (rt_taskId h).map fun t => (⟨t⟩ : ServiceHandshakeRequest)

theorem rt_serviceResponse {m : ServiceHandshakeResponse} (h1 : ∀ n, m.discovery_node = some n → NodeOK n)
    (h2 : StrOK m.cluster_name) (h3 : VersionOK m.version) :
    RoundTrips m.writeTo ServiceHandshakeResponse.readFrom m := by
  obtain ⟨node, cn, ver⟩ := m
  unfold ServiceHandshakeResponse.writeTo ServiceHandshakeResponse.readFrom
  have tail : RoundTrips (writeString cn ++ writeVersion ver)
      (do let cluster_name ← readString
          let version ← readVersion
          return (⟨node, cluster_name, version⟩ : ServiceHandshakeResponse)) ⟨node, cn, ver⟩ :=
    (rt_string h2).seq ((rt_versionOK h3).map fun v => (⟨node, cn, v⟩ : ServiceHandshakeResponse))
  cases node with
  | none =>
    refine (rt_boolean false).seq ?_
    simp only [Bool.false_eq_true, if_false, pure_bind]
    exact tail
  | some n =>
    simp only
    rw [W.append_assoc]
    refine (rt_boolean true).seq ?_
    simp only [if_true, map_eq_pure_bind, bind_assoc, pure_bind]
    exact (rt_node (h1 n rfl)).seq tail

/-- Reading settings into `d`: every entry is assigned in order. -/
theorem settings_readLoop (depth : Nat) (l : List (String × PyVal)) (d : Dict String PyVal) (rest : Bytes)
    (h : ∀ kv ∈ l, StrOK kv.1 ∧ GenericOK kv.2 ∧ nesting kv.2 ≤ depth) :
    Settings.readLoop depth l.length d
      ((W.forEach (fun kv => writeString kv.1 ++ writeGeneric kv.2) l).out ++ rest) =
      (l.foldl (fun d kv => d.set kv.1 kv.2) d, .ok rest) := by
  induction l generalizing d with
  | nil => rfl
  | cons kv l ih =>
    obtain ⟨hk, hv, hn⟩ := h kv (by simp)
    have hrt : RoundTrips (writeString kv.1 ++ writeGeneric kv.2)
        (do let key ← readString; let value ← readGeneric depth; return (key, value)) kv :=
      (rt_string hk).seq ((rt_generic kv.2 depth hv hn).map fun v => (kv.1, v))
    simp only [List.length_cons, W.forEach, Settings.readLoop, List.foldl_cons]
    rw [W.out_append hrt.1, List.append_assoc, hrt.2]
    exact ih _ fun kv' hkv' => h kv' (by simp [hkv'])

theorem settings_write_err {depth : Nat} {d : Dict String PyVal} (h : SettingsOK depth d) :
    (Settings.writeTo d).err = none := by
  unfold Settings.writeTo
  rw [W.err_append]
  refine ⟨by simp, ?_⟩
  have : ∀ l : List (String × PyVal), (∀ kv ∈ l, StrOK kv.1 ∧ GenericOK kv.2 ∧ nesting kv.2 ≤ depth) →
      (W.forEach (fun kv : String × PyVal => writeString kv.1 ++ writeGeneric kv.2) l).err = none := by
    intro l
    induction l with
    | nil => intro _; rfl
    | cons kv l ih =>
      intro h
      obtain ⟨hk, hv, hn⟩ := h kv (by simp)
      simp only [W.forEach, W.err_append]
      exact ⟨⟨(rt_string hk).1, (rt_generic kv.2 depth hv hn).1⟩, ih fun kv' hkv' => h kv' (by simp [hkv'])⟩
  exact this d h.2.2

theorem settings_read {depth : Nat} {d : Dict String PyVal} (h : SettingsOK depth d)
    (d0 : Dict String PyVal) (rest : Bytes) :
    Settings.readFrom depth d0 ((Settings.writeTo d).out ++ rest) =
      (d.foldl (fun d kv => d.set kv.1 kv.2) d0, .ok rest) := by
  unfold Settings.readFrom Settings.writeTo
  rw [W.out_append (by simp), List.append_assoc, (rt_vint h.2.1).2, ← settings_readLoop depth d d0 rest h.2.2]
  simp

end Verif
