import Verif.Spec.Construct
import Verif.Props.Address
import Verif.Lemmas.Header

/-!
# C118: Arguments left out of a constructor
-/

namespace Verif
open Py StreamInput StreamOutput

theorem decimal_byte_length (k : Nat) (h : k < 256) : (utf8 (toString k)).length ≤ 3 := by
  have : ∀ k : Fin 256, (utf8 (toString k.val)).length ≤ 3 := by decide +kernel
  exact this ⟨k, h⟩

theorem strOK_dotted (n : Nat) : StrOK (dotted n) := by
  unfold StrOK dotted
  have m : ∀ x : Nat, x % 256 < 256 := fun x => Nat.mod_lt _ (by decide)
  generalize n / 256 ^ 3 = a, n / 256 ^ 2 = b, n / 256 = c
  have ha := decimal_byte_length _ (m a)
  have hb := decimal_byte_length _ (m b)
  have hc := decimal_byte_length _ (m c)
  have hd := decimal_byte_length _ (m n)
  rw [← dotted_interp]
  have dot : (utf8 ".").length = 1 := by decide +kernel
  simp only [utf8_append, List.length_append, dot]
  omega

theorem versionOK_current : VersionOK (Version.new Version.CURRENT) := by decide +kernel

/-- The node that a constructor with an id and an address makes fits, if the arguments do. -/
theorem nodeOK_new {a : NodeArgs} (ok : NodeArgsOK a) {fresh i : String} {t : TransportAddress} (hf : StrOK fresh)
    (hi : a.node_id = some i) (ht : a.address = some t) :
    NodeOK (DiscoveryNode.new a.node_name i a.ephemeral_id a.host_name a.host_address t a.attributes a.roles a.version
      fresh) := by
  have hk := ok.address t ht
  have pick : ∀ (o : Option String) (d : String), (∀ s, o = some s → StrOK s) → StrOK d →
      StrOK (match o with | some s => if s ≠ "" then s else d | none => d) := by
    intro o d h hd
    cases o with
    | none => exact hd
    | some s =>
      show StrOK (if s ≠ "" then s else d)
      by_cases hs : s ≠ ""
      · rw [if_pos hs]; exact h s rfl
      · rw [if_neg hs]; exact hd
  refine ⟨ok.name, ok.id i hi, pick _ _ ok.ephemeral hf, pick _ _ ok.host hk.2.1,
    pick _ _ ok.host_address (strOK_dotted _), hk, ok.attributes, ok.roles, ?_⟩
  show VersionOK (a.version.getD _)
  cases hv : a.version with
  | none => exact versionOK_current
  | some v => exact ok.version v hv

theorem make_some {a : NodeArgs} {fresh i : String} {t : TransportAddress} (hi : a.node_id = some i) (hne : i ≠ "")
    (ht : a.address = some t) : DiscoveryNode.make a fresh = some (DiscoveryNode.new a.node_name i a.ephemeral_id
      a.host_name a.host_address t a.attributes a.roles a.version fresh) := by
  unfold DiscoveryNode.make
  rw [hi, ht]
  exact if_pos hne

theorem make_none {a : NodeArgs} {fresh : String} (h : TextMissing a.node_id ∨ a.address = none) :
    DiscoveryNode.make a fresh = none := by
  unfold DiscoveryNode.make
  rcases h with (h | h) | h
  · rw [h]
  · rw [h]; cases a.address <;> rfl
  · rw [h]; cases a.node_id <;> rfl

theorem text_cases (o : Option String) : TextMissing o ∨ ∃ s, TextGiven o s := by
  rcases o with _ | s
  · exact .inl (.inl rfl)
  · by_cases h : s = ""
    · exact .inl (.inr (by rw [h]))
    · exact .inr ⟨s, rfl, h⟩

theorem pick_given (o : Option String) (s d : String) : TextGiven o s →
    (match o with | some s => if s ≠ "" then s else d | none => d) = s := by
  intro h; rw [h.1]; exact if_pos h.2

theorem pick_missing (o : Option String) (d : String) : TextMissing o →
    (match o with | some s => if s ≠ "" then s else d | none => d) = d := by
  rintro (h | h) <;> rw [h]
  exact if_neg (by simp)

/-- C118, nodes: whatever else is given, a node can be written exactly if it was given an id and an address; without
them writing raises before the first byte. -/
theorem C118_node_partial (a : NodeArgs) (fresh : String) (ok : NodeArgsOK a) (hf : StrOK fresh) :
    ((DiscoveryNode.writeMade (DiscoveryNode.make a fresh)).err = none ↔
      (∃ i, TextGiven a.node_id i) ∧ ∃ t, a.address = some t) ∧
    ((DiscoveryNode.writeMade (DiscoveryNode.make a fresh)).err ≠ none →
      (DiscoveryNode.writeMade (DiscoveryNode.make a fresh)).out = [] ∧
      (DiscoveryNode.writeMade (DiscoveryNode.make a fresh)).err = some .attribute) := by
  by_cases hc : (∃ i, TextGiven a.node_id i) ∧ ∃ t, a.address = some t
  · obtain ⟨⟨i, hi, hne⟩, t, ht⟩ := hc
    rw [make_some hi hne ht]
    have e := (rt_node (nodeOK_new ok hf hi ht)).1
    exact ⟨⟨fun _ => ⟨⟨i, hi, hne⟩, t, ht⟩, fun _ => e⟩, fun h => absurd e h⟩
  · have hm : TextMissing a.node_id ∨ a.address = none := by
      rcases text_cases a.node_id with h | ⟨i, h⟩
      · exact .inl h
      · cases ht : a.address with
        | none => exact .inr rfl
        | some t => exact absurd ⟨⟨i, h⟩, t, ht⟩ hc
    rw [make_none hm]
    exact ⟨⟨fun h => by (cases h), fun h => absurd h hc⟩, fun _ => ⟨rfl, rfl⟩⟩

/-- C118, nodes: with an id and an address everything else may be left out.  Reading what was written gives what was
given, and for what was left out the name "", a fresh ephemeral id, the address's host name, the address in dotted form, no
attributes, no roles and the current version (an empty text counts as left out). -/
theorem C118_node_values (a : NodeArgs) (fresh i : String) (t : TransportAddress) (ok : NodeArgsOK a) (hf : StrOK fresh)
    (hi : TextGiven a.node_id i) (ht : a.address = some t) :
    ∃ n : DiscoveryNode, RoundTrips (DiscoveryNode.writeMade (DiscoveryNode.make a fresh)) DiscoveryNode.readFrom n ∧
      n.node_name = a.node_name ∧ n.node_id = i ∧ n.address = t ∧ n.attributes = a.attributes ∧ n.roles = a.roles ∧
      (∀ s, TextGiven a.ephemeral_id s → n.ephemeral_id = s) ∧ (TextMissing a.ephemeral_id → n.ephemeral_id = fresh) ∧
      (∀ s, TextGiven a.host_name s → n.host_name = s) ∧ (TextMissing a.host_name → n.host_name = t.host_name) ∧
      (∀ s, TextGiven a.host_address s → n.host_address = s) ∧
      (TextMissing a.host_address → n.host_address = dotted t.address) ∧
      (∀ v, a.version = some v → n.version = v) ∧ (a.version = none → n.version = Version.new 3000099) := by
  refine ⟨DiscoveryNode.new a.node_name i a.ephemeral_id a.host_name a.host_address t a.attributes a.roles a.version fresh,
    ?_, ?_⟩
  · rw [make_some hi.1 hi.2 ht]
    exact rt_node (nodeOK_new ok hf hi.1 ht)
  · refine ⟨rfl, rfl, rfl, rfl, rfl, fun s h => pick_given _ _ _ h, fun h => pick_missing _ _ h, fun s h => pick_given _ _ _ h,
      fun h => pick_missing _ _ h, fun s h => pick_given _ _ _ h, fun h => pick_missing _ _ h, fun v h => ?_, fun h => ?_⟩
    · show a.version.getD _ = v
      rw [h]; rfl
    · show a.version.getD _ = _
      rw [h]; rfl

/-- C118, extension nodes: the same, with the version 0 for both versions that were left out and no dependencies. -/
theorem C118_extension_node_partial (a : ExtensionNodeArgs) (fresh : String) (ok : ExtensionNodeArgsOK a)
    (hf : StrOK fresh) :
    ((MadeExtensionNode.make a fresh).writeTo.err = none ↔ a.node_id ≠ "" ∧ ∃ t, a.address = some t) ∧
    (∀ t, a.node_id ≠ "" → a.address = some t → ∃ n : DiscoveryExtensionNode,
      RoundTrips (MadeExtensionNode.make a fresh).writeTo DiscoveryExtensionNode.readFrom n ∧
      n.node_name = a.node_name ∧ n.node_id = a.node_id ∧ n.ephemeral_id = fresh ∧ n.host_name = t.host_name ∧
      n.host_address = dotted t.address ∧ n.address = t ∧ n.attributes = a.attributes ∧ n.roles = [] ∧
      n.version = a.version ∧ n.minimum_compatible_version = a.minimum_compatible_version ∧
      n.dependencies = a.dependencies) := by
  let b : NodeArgs := ⟨a.node_name, some a.node_id, none, none, none, a.address, a.attributes, [], some a.version⟩
  have okb : NodeArgsOK b :=
    ⟨ok.name, fun s h => by cases h; exact ok.id, fun s h => by (cases h), fun s h => by (cases h),
      fun s h => by (cases h), ok.address, ok.attributes, ⟨show 0 < 2 ^ 35 by decide, List.nodup_nil, fun r h => by (cases h)⟩,
      fun v h => by cases h; exact ok.version⟩
  have key : ∀ t, a.node_id ≠ "" → a.address = some t → ∃ n : DiscoveryExtensionNode,
      RoundTrips (MadeExtensionNode.make a fresh).writeTo DiscoveryExtensionNode.readFrom n ∧
      n.node_name = a.node_name ∧ n.node_id = a.node_id ∧ n.ephemeral_id = fresh ∧ n.host_name = t.host_name ∧
      n.host_address = dotted t.address ∧ n.address = t ∧ n.attributes = a.attributes ∧ n.roles = [] ∧
      n.version = a.version ∧ n.minimum_compatible_version = a.minimum_compatible_version ∧
      n.dependencies = a.dependencies := by
    intro t hne ht
    have hn := nodeOK_new (i := a.node_id) (t := t) okb hf rfl ht
    refine ⟨{ DiscoveryNode.new b.node_name a.node_id b.ephemeral_id b.host_name b.host_address t b.attributes b.roles
        b.version fresh with
        minimum_compatible_version := a.minimum_compatible_version, dependencies := a.dependencies }, ?_,
      rfl, rfl, rfl, rfl, rfl, rfl, rfl, rfl, rfl, rfl, rfl⟩
    have e : (MadeExtensionNode.make a fresh).writeTo = DiscoveryExtensionNode.writeTo
        { DiscoveryNode.new b.node_name a.node_id b.ephemeral_id b.host_name b.host_address t b.attributes b.roles
          b.version fresh with
          minimum_compatible_version := a.minimum_compatible_version, dependencies := a.dependencies } := by
      unfold MadeExtensionNode.writeTo MadeExtensionNode.make
      dsimp only
      rw [make_some (a := b) rfl hne ht]
      rfl
    rw [e]
    exact rt_extensionNode ⟨hn, ok.compatible, ok.dependencies⟩
  refine ⟨⟨fun h => ?_, fun ⟨hne, t, ht⟩ => ?_⟩, key⟩
  · unfold MadeExtensionNode.writeTo at h
    have h1 := ((W.err_append _ _).1 h).1
    obtain ⟨⟨i, hi, hne⟩, t, ht⟩ := (C118_node_partial b fresh okb hf).1.1 h1
    cases hi
    exact ⟨hne, t, ht⟩
  · obtain ⟨n, hrt, _⟩ := key t hne ht
    exact hrt.1

/-- C118, extension nodes: given an id and an address alone. -/
theorem C118_extension_node_defaults (i fresh : String) (t : TransportAddress) (hi : StrOK i) (hne : i ≠ "")
    (ht : AddressOK t) (hf : StrOK fresh) :
    RoundTrips (MadeExtensionNode.make { node_id := i, address := some t } fresh).writeTo DiscoveryExtensionNode.readFrom
      ⟨⟨"", i, fresh, t.host_name, dotted t.address, t, [], [], Version.new 0⟩, Version.new 0, []⟩ := by
  have ok : ExtensionNodeArgsOK { node_id := i, address := some t } :=
    ⟨show StrOK "" by decide +kernel, hi, fun s h => by cases h; exact ht, show StrDictOK [] by decide +kernel,
      show VersionOK (Version.new 0) by decide +kernel, show VersionOK (Version.new 0) by decide +kernel,
      show 0 < 2 ^ 35 by decide, fun d h => by (cases h)⟩
  obtain ⟨n, hrt, h1, h2, h3, h4, h5, h6, h7, h8, h9, h10, h11⟩ :=
    (C118_extension_node_partial _ fresh ok hf).2 t hne rfl
  obtain ⟨⟨a1, a2, a3, a4, a5, a6, a7, a8, a9⟩, a10, a11⟩ := n
  dsimp only at h1 h2 h3 h4 h5 h6 h7 h8 h9 h10 h11
  subst h1 h2 h3 h4 h5 h6 h7 h8 h9 h10 h11
  exact hrt

/-- Two messages' arguments: a node with an id and an address alone, and one with everything. -/
def sampleNodeArgs : NodeArgs where
  node_id := some "n1"
  address := some ⟨127 * 256 ^ 3 + 1, "localhost", 9300⟩

def fullNodeArgs : NodeArgs where
  node_name := "é"
  node_id := some "n1"
  ephemeral_id := some "e1"
  host_name := some "h"
  host_address := some "a"
  address := some ⟨10 * 256 ^ 3 + 1, "localhost", 9300⟩
  attributes := [("k", "v")]
  roles := [DATA_ROLE, INGEST_ROLE]
  version := some (Version.new 2100099)

theorem sampleNodeArgs_ok : NodeArgsOK sampleNodeArgs := by
  constructor <;> (try intro s h; cases h) <;> decide +kernel

theorem fullNodeArgs_ok : NodeArgsOK fullNodeArgs := by
  constructor <;> (try intro s h; cases h) <;> decide +kernel

example := C118_node_values sampleNodeArgs "AAAAAAAAAAAAAAAAAAAAAA" "n1" _ sampleNodeArgs_ok (by decide +kernel)
  ⟨rfl, by decide⟩ rfl
example := C118_node_values fullNodeArgs "AAAAAAAAAAAAAAAAAAAAAA" "n1" _ fullNodeArgs_ok (by decide +kernel)
  ⟨rfl, by decide⟩ rfl
example := C118_node_partial { sampleNodeArgs with node_id := some "" } "AAAAAAAAAAAAAAAAAAAAAA"
  { sampleNodeArgs_ok with id := fun s h => by cases h; decide +kernel } (by decide +kernel)

/-- C118, the answer to a transport handshake: node, cluster name and version may all be left out, and read back as no
node, "" and the current version. -/
theorem C118_service_response (node : Option DiscoveryNode) (cluster : String) (version : Option Version)
    (hn : ∀ n, node = some n → NodeOK n) (hc : StrOK cluster) (hv : ∀ v, version = some v → VersionOK v) :
    RoundTrips (writeServiceHandshake (node.map some) cluster version) ServiceHandshakeResponse.readFrom
      ⟨node, cluster, version.getD (Version.new 3000099)⟩ := by
  have hv' : VersionOK (version.getD (Version.new Version.CURRENT)) := by
    cases version with
    | none => exact versionOK_current
    | some v => exact hv v rfl
  have := rt_serviceResponse (m := ⟨node, cluster, version.getD (Version.new Version.CURRENT)⟩) hn hc hv'
  cases node <;> exact this

example := C118_service_response none "" none (fun _ h => by cases h) (by decide +kernel) (fun _ h => by cases h)

/-- C118, headers: with a version everything else may be left out, and the header reads back with what was given, and the
marker `ES`, the next request id, status 0, size 17 and no variable header for what was left out. -/
theorem C118_header (a : HeaderArgs) (v : Version) (ids : Nat) (hv : a.version = some v)
    (ok : HeaderOK (TcpHeader.make a ids).1 v) :
    ∃ h : TcpHeader, RoundTrips (TcpHeader.make a ids).1.writeTo TcpHeader.readFrom h ∧ h.marker = a.marker ∧
      h.status = a.status ∧ h.size = a.size ∧ h.variable_header_size = a.variable_header_size ∧ h.version = .obj v ∧
      (∀ i, a.request_id = some i → i ≠ 0 → h.request_id = i ∧ (TcpHeader.make a ids).2 = ids) ∧
      (a.request_id = none ∨ a.request_id = some 0 → h.request_id = ids ∧ (TcpHeader.make a ids).2 = ids + 1) := by
  refine ⟨_, rt_header ok, ?_⟩
  obtain ⟨marker, rid, status, version, size, vhs⟩ := a
  cases hv
  rcases rid with _ | i
  · exact ⟨rfl, rfl, rfl, rfl, rfl, fun i h => by (cases h), fun _ => ⟨rfl, rfl⟩⟩
  · by_cases hi : i = 0
    · subst hi
      exact ⟨rfl, rfl, rfl, rfl, rfl, fun i h h0 => by cases h; exact absurd rfl h0, fun _ => ⟨rfl, rfl⟩⟩
    · have e : TcpHeader.make ⟨marker, some i, status, some v, size, vhs⟩ ids =
          (⟨marker, i, status, .obj v, size, vhs⟩, ids) := by
        unfold TcpHeader.make TcpHeader.new
        dsimp only
        rw [if_neg hi]
      rw [e]
      exact ⟨rfl, rfl, rfl, rfl, rfl, fun j h _ => by cases h; exact ⟨rfl, rfl⟩,
        fun h => by rcases h with h | h <;> cases h; exact absurd rfl hi⟩

example := C118_header { version := some (Version.new 3000099) } (Version.new 3000099) 7 rfl
  (by constructor <;> decide +kernel)
/-- C118, headers: given a version alone. -/
theorem C118_header_defaults (v : Version) (ids : Nat) (h1 : 0 ≤ v.id) (h2 : v.id < 2 ^ 32) (hi : ids < 2 ^ 63) :
    RoundTrips (TcpHeader.make { version := some v } ids).1.writeTo TcpHeader.readFrom
      ⟨[0x45, 0x53], ids, 0, .obj v, 17, 0⟩ := by
  refine rt_header (h := ⟨[0x45, 0x53], ids, 0, .obj v, 17, 0⟩) (v := v) ?_
  have a : -(2 ^ 31) ≤ (17 : Int) := by decide
  have b : (17 : Int) < 2 ^ 31 := by decide
  have c : -(2 ^ 7) ≤ (0 : Int) := by decide
  have d : (0 : Int) < 2 ^ 7 := by decide
  have e : -(2 ^ 31) ≤ (0 : Int) := by decide
  have f : (0 : Int) < 2 ^ 31 := by decide
  exact ⟨rfl, a, b, by show -(2 ^ 63) ≤ (ids : Int); omega, by show (ids : Int) < 2 ^ 63; omega, c, d, rfl, h1,
    h2, e, f⟩

example := C118_header_defaults (Version.new 3000099) 7 (by decide) (by decide) (by decide)

example : TcpHeader.make {} 7 = (⟨[0x45, 0x53], 7, 0, .int 3000099, 17, 0⟩, 8) := by decide +kernel

/-- Writing stops with an exception when one of the parts does. -/
theorem append_raises {a b : W} (h : a.err ≠ none ∨ b.err ≠ none) : (a ++ b).err ≠ none := by
  intro e
  have := (W.err_append a b).1 e
  rcases h with h | h
  · exact h this.1
  · exact h this.2

theorem header_none_raises (h : TcpHeader) (hv : h.version = .none) : h.writeTo.err ≠ none := by
  unfold TcpHeader.writeTo
  rw [hv]
  exact append_raises (.inr (append_raises (.inr (append_raises (.inr (append_raises (.inr (append_raises (.inl
    (by simp [VerField.toBytes]))))))))))

theorem message_new_version {ctx : Option ThreadContext} {ver : VerField} {status : Int} {rid : Option Int}
    {message : Option W} {ids ids' : Nat} {m : OutboundMessage}
    (h : OutboundMessage.new ctx ver status rid message ids = (.ok m, ids')) : m.tcp_header.version = ver := by
  have hn : ∀ st : Int, (TcpHeader.new ver st rid ids).1.version = ver := by
    intro st
    unfold TcpHeader.new
    rcases rid with _ | i
    · rfl
    · dsimp only
      by_cases hi : i = 0
      · rw [if_pos hi]
      · rw [if_neg hi]
  unfold OutboundMessage.new at h
  rcases message with _ | w
  · cases h; exact hn status
  · dsimp only at h
    cases he : w.err with
    | some e => rw [he] at h; cases h
    | none => rw [he] at h; cases h; exact hn status

theorem setFlags_version (m : OutboundMessage) (a b : Bool) : (m.setFlags a b).tcp_header.version = m.tcp_header.version := by
  cases a <;> cases b <;> rfl

/-- C118, violated: these arguments have a default and yet the object cannot be written without them, whatever else is
given: the version of a TCP handshake answer, either node of an initialisation request, the settings of an environment answer,
the number of a task id with a node, the version of a request or response.  A node made without id or address can be part of
neither message. -/
theorem C118_violated :
    (writeHandshakerResponse none).err ≠ none ∧
    (∀ task extension, (writeInitialize task none extension).err ≠ none) ∧
    (∀ task source, (writeInitialize task source none).err ≠ none) ∧
    (∀ task extension, (writeInitialize task (some none) extension).err ≠ none) ∧
    (writeEnvironment none).err ≠ none ∧
    (∀ cluster version, (writeServiceHandshake (some none) cluster version).err ≠ none) ∧
    (∀ node : String, node ≠ "" → (TaskId.writeTo ⟨node, none⟩).err ≠ none) ∧
    (∀ (ho : HashOrder) ctx features message action rid hs cp ids ids' (m : OutboundRequest),
      OutboundRequest.new ctx features message .none action rid hs cp ids = (.ok m, ids') → (m.writeTo ho).err ≠ none) ∧
    (∀ (ho : HashOrder) ctx features message rid hs cp ids ids' (m : OutboundResponse),
      OutboundResponse.new ctx features message .none rid hs cp ids = (.ok m, ids') → (m.writeTo ho).err ≠ none) := by
  refine ⟨by decide, ?_, ?_, ?_, by decide, ?_, ?_, ?_, ?_⟩
  · intro task extension
    exact append_raises (.inr (append_raises (.inl (by simp))))
  · intro task source
    exact append_raises (.inr (append_raises (.inr (by simp))))
  · intro task extension
    exact append_raises (.inr (append_raises (.inl (by simp [DiscoveryNode.writeMade]))))
  · intro cluster version
    exact append_raises (.inl (append_raises (.inr (by simp [DiscoveryNode.writeMade]))))
  · intro node h
    unfold TaskId.writeTo
    rw [if_pos h]
    exact append_raises (.inr (by simp))
  · intro ho ctx features message action rid hs cp ids ids' m h
    unfold OutboundRequest.new at h
    cases hm : OutboundMessage.new ctx .none 0 rid message ids with
    | mk r ids1 =>
      rw [hm] at h
      cases r with
      | error e => cases h
      | ok m1 =>
        cases h
        refine append_raises (.inl (header_none_raises _ ?_))
        rw [setFlags_version]
        have := message_new_version hm
        rcases hv : m1.variable_bytes with _ | _ | ⟨x, xs⟩ <;> simp only [OutboundMessage.setVariableBytes, hv] <;> exact this
  · intro ho ctx features message rid hs cp ids ids' m h
    unfold OutboundResponse.new at h
    cases hm : OutboundMessage.new ctx .none STATUS_REQRES rid message ids with
    | mk r ids1 =>
      rw [hm] at h
      cases r with
      | error e => cases h
      | ok m1 =>
        cases h
        refine append_raises (.inl (header_none_raises _ ?_))
        rw [setFlags_version]
        exact message_new_version hm

/-- C118, violated: a header made without a version is written, but as more than three million bytes (the version is the
*number* `Version.CURRENT`, and that many zero bytes are written), where a header has 23. -/
theorem C118_header_violated (a : HeaderArgs) (ids : Nat) (hv : a.version = none)
    (h : (TcpHeader.make a ids).1.writeTo.err = none) : 3000099 ≤ (TcpHeader.make a ids).1.writeTo.out.length := by
  have e : (TcpHeader.make a ids).1.version = .int Version.CURRENT := by
    obtain ⟨marker, rid, status, version, size, vhs⟩ := a
    cases hv
    rcases rid with _ | i
    · rfl
    · unfold TcpHeader.make TcpHeader.new
      dsimp only
      by_cases hi : i = 0
      · rw [if_pos hi]
      · rw [if_neg hi]
  generalize (TcpHeader.make a ids).1 = x at h e
  unfold TcpHeader.writeTo at h ⊢
  rw [e] at h ⊢
  have hb : (VerField.int Version.CURRENT).toBytes = W.emit (List.replicate 3000099 0) := by
    show (if Version.CURRENT < 0 then W.fail .value else W.emit (List.replicate Version.CURRENT.toNat 0)) = _
    rw [if_neg (by decide), show Version.CURRENT.toNat = 3000099 by decide]
  rw [hb] at h ⊢
  generalize hr : List.replicate 3000099 (0 : UInt8) = big at h ⊢
  have hl : big.length = 3000099 := by rw [← hr]; exact List.length_replicate
  simp only [W.err_append] at h
  rw [W.out_append h.1, W.out_append h.2.1, W.out_append h.2.2.1, W.out_append h.2.2.2.1, W.out_append h.2.2.2.2.1]
  simp only [List.length_append, W.emit_out, hl]
  omega

example := C118_extension_node_defaults "n1" "AAAAAAAAAAAAAAAAAAAAAA" (TransportAddress.new (10 * 256 ^ 3 + 1) 9300 none) (by decide +kernel)
  (by decide) (by decide +kernel) (by decide +kernel)
example := C118_extension_node_partial { node_id := "n1", address := some (TransportAddress.new (10 * 256 ^ 3 + 1) 9300 none) }
  "AAAAAAAAAAAAAAAAAAAAAA" (by constructor <;> decide +kernel) (by decide +kernel)
example := C118_header_violated {} 7 rfl (by decide +kernel)

end Verif
