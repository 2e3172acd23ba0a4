import Verif.Props.Texts
import Verif.Props.Secrets
import Verif.Spec.Shown
/-!
# C111: the texts of nodes and replies tell them apart
-/

namespace Verif
open Py
variable (p : Shown)

theorem setRepr_delimited {α : Type} {f : α → String} (hf : Delimited fun a => (f a).toList)
    (hh : ∀ a, ∃ k r, (f a).toList = k :: r ∧ k ≠ '}') :
    Delimited fun l : List α => (setRepr (l.map f)).toList := by
  have h := (join_delimited hf (t := '}') (by decide) hh).cons "{".toList
  intro a b x y e
  cases a with
  | nil =>
    cases b with
    | nil => exact ⟨rfl, List.append_cancel_left e⟩
    | cons c b =>
      have e' : 's' :: ("et()".toList ++ x) = '{' :: ((joinComma ((c :: b).map f)).toList ++ ("}".toList ++ y)) := by
        simp only [setRepr, List.map_cons, reduceCtorEq, if_false, String.toList_append, List.append_assoc,
          List.map_nil, if_true] at e
        exact e
      exact absurd (List.cons.inj e').1 (by decide)
  | cons c a =>
    cases b with
    | nil =>
      have e' : '{' :: ((joinComma ((c :: a).map f)).toList ++ ("}".toList ++ x)) = 's' :: ("et()".toList ++ y) := by
        simp only [setRepr, List.map_cons, reduceCtorEq, if_false, String.toList_append, List.append_assoc,
          List.map_nil, if_true] at e
        exact e
      exact absurd (List.cons.inj e').1 (by decide)
    | cons d b =>
      simp only [setRepr, List.map_cons, reduceCtorEq, if_false, String.toList_append, List.append_assoc] at e
      exact h _ _ x y (by simp only [List.append_assoc]; exact e)

theorem bool_delimited : Delimited fun b => (boolRepr b).toList := by
  intro a b x y e
  cases a <;> cases b
  · exact ⟨rfl, List.append_cancel_left e⟩
  · exact absurd (List.cons.inj e).1 (by decide)
  · exact absurd (List.cons.inj e).1 (by decide)
  · exact ⟨rfl, List.append_cancel_left e⟩

theorem role_delimited : Delimited fun r => (p.role r).toList := by
  intro a b x y e
  have h : ∀ r : Role, (p.role r).toList = "(".toList ++ ((p.str r.1).toList ++ (", ".toList ++
      ((p.str r.2.1).toList ++ (", ".toList ++ ((boolRepr r.2.2).toList ++ ")".toList))))) := by
    intro r
    simp only [Shown.role, tupleRepr, joinComma, String.toList_append, List.append_assoc]
  simp only [h, List.append_assoc] at e
  obtain ⟨h1, e1⟩ := strRepr_delimited p.printable _ _ _ _ (List.append_cancel_left e)
  obtain ⟨h2, e2⟩ := strRepr_delimited p.printable _ _ _ _ (List.append_cancel_left e1)
  obtain ⟨h3, e3⟩ := bool_delimited _ _ _ _ (List.append_cancel_left e2)
  exact ⟨Prod.ext h1 (Prod.ext h2 h3), List.append_cancel_left e3⟩

theorem role_head (r : Role) : ∃ k l, (p.role r).toList = k :: l ∧ k = '(' :=
  ⟨'(', _, by simp only [Shown.role, tupleRepr, String.toList_append]; rfl, rfl⟩

theorem roles_delimited (ordered : Bool) : Delimited fun l => (p.roles ordered l).toList := by
  cases ordered with
  | false =>
    intro a b x y e
    exact setRepr_delimited (role_delimited p) (fun r => by
      obtain ⟨k, l, h, rfl⟩ := role_head p r
      exact ⟨_, l, h, by decide⟩) a b x y e
  | true =>
    intro a b x y e
    simp only [Shown.roles, if_true, String.toList_append, List.append_assoc] at e
    obtain ⟨h1, h2⟩ := listRepr_delimited (role_delimited p) (fun r => by
      obtain ⟨k, l, h, rfl⟩ := role_head p r
      exact ⟨_, l, h, by decide⟩) a b _ _ (List.append_cancel_left e)
    exact ⟨h1, List.append_cancel_left h2⟩

theorem listDict_delimited : Delimited fun d => (p.listDict d).toList :=
  dictRepr_delimited p (g := p.strs) (strs_delimited p)

/-- C111: the two raw records of the same bytes only. -/
theorem C111_raw {direction : String} {data data' : Bytes} (h : rawRecord direction data = rawRecord direction data') :
    data = data' := by
  have e := congrArg String.toList h
  unfold rawRecord at e
  simp only [String.toList_append, List.append_assoc] at e
  have e1 := List.append_cancel_left (List.append_cancel_left e)
  unfold bytesRepr at e1
  simp only [String.toList_append, List.append_assoc] at e1
  have h1 := (strRepr_delimited (fun _ => false) _ _ _ _ (List.append_cancel_left e1)).1
  refine C99_raw ?_
  unfold readRecord bytesRepr
  rw [h1]

/-- C111: a task id is determined by its text. -/
theorem C111_task {t t' : TaskId} (h : t.str = t'.str) : t = t' := by
  obtain ⟨n, i⟩ := t
  obtain ⟨n', i'⟩ := t'
  have e := congrArg (fun s => s.toList.reverse) h
  have hno : ∀ i : Option Int, ',' ∉ ((match i with | some i => toString i | none => "None" : String).toList).reverse := by
    intro i
    rw [List.mem_reverse]
    cases i with
    | none => decide
    | some i => exact int_no i (by decide) (by decide)
  have ht : ∀ (n : String) (i : Option Int), (TaskId.str ⟨n, i⟩).toList.reverse =
      ((match i with | some i => toString i | none => "None" : String).toList).reverse ++ ("=di ".toList ++ ',' ::
        (n.toList.reverse ++ "=edon".toList)) := by
    intro n i
    simp only [TaskId.str, String.toList_append, List.reverse_append]
    rw [show ", id=".toList.reverse = "=di ".toList ++ [','] from rfl, show "node=".toList.reverse = "=edon".toList from rfl]
    simp only [List.append_assoc, List.singleton_append]
    cases i <;> rfl
  simp only [ht] at e
  have hno2 : ',' ∉ "=di ".toList := by decide
  rw [← List.append_assoc, ← List.append_assoc] at e
  obtain ⟨h1, h2⟩ := sep_cancel (by simp only [List.mem_append, not_or]; exact ⟨hno i, hno2⟩)
    (by simp only [List.mem_append, not_or]; exact ⟨hno i', hno2⟩) e
  have h3 := List.reverse_inj.1 (List.append_cancel_right h1)
  have h4 := List.reverse_inj.1 (List.append_cancel_right h2)
  have hn : n = n' := String.toList_inj.1 h4
  have hNone : ∀ j : Int, "None".toList ≠ (toString j).toList := by
    intro j hj
    have : 'N' ∈ (toString j).toList := by rw [← hj]; decide
    exact int_no j (by decide) (by decide) this
  have hi : i = i' := by
    cases i with
    | none =>
      cases i' with
      | none => rfl
      | some j => exact absurd h3 (hNone j)
    | some j =>
      cases i' with
      | none => exact absurd h3.symm (hNone j)
      | some k => rw [int_text_inj (String.toList_inj.1 h3)]
  rw [hn, hi]

/-- The text of a node, cut at its commas. -/
theorem node_text (ordered : Bool) (n : DiscoveryNode) (x : List Char) : (n.str p ordered).toList ++ x =
    "id=".toList ++ (n.node_id.toList ++ ',' :: (" version=".toList ++ ((p.version n.version).toList ++ ',' ::
      (" name=".toList ++ (n.node_name.toList ++ ',' :: (" host=".toList ++ (n.host_name.toList ++ ',' ::
        (" addr=".toList ++ (n.host_address.toList ++ ',' :: (" attr=".toList ++ ((p.dict n.attributes).toList ++
          (", roles=".toList ++ ((p.roles ordered n.roles).toList ++ x))))))))))))) := by
  unfold DiscoveryNode.str
  simp only [String.toList_append, List.append_assoc]
  rfl

theorem node_cancel {ordered : Bool} {n n' : DiscoveryNode} {x y : List Char} (hn : PlainNode n) (hn' : PlainNode n')
    (e : (n.str p ordered).toList ++ x = (n'.str p ordered).toList ++ y) : SameShownNode p.fd n n' ∧ x = y := by
  rw [node_text, node_text] at e
  obtain ⟨a1, e1⟩ := sep_cancel (hn _ (by simp)) (hn' _ (by simp)) (List.append_cancel_left e)
  obtain ⟨a2, e2⟩ := sep_cancel (version_no p (by decide) (by decide) (by decide))
    (version_no p (by decide) (by decide) (by decide)) (List.append_cancel_left e1)
  obtain ⟨a3, e3⟩ := sep_cancel (hn _ (by simp)) (hn' _ (by simp)) (List.append_cancel_left e2)
  obtain ⟨a4, e4⟩ := sep_cancel (hn _ (by simp)) (hn' _ (by simp)) (List.append_cancel_left e3)
  obtain ⟨a5, e5⟩ := sep_cancel (hn _ (by simp)) (hn' _ (by simp)) (List.append_cancel_left e4)
  obtain ⟨a6, e6⟩ := dict_delimited p _ _ _ _ (List.append_cancel_left e5)
  obtain ⟨a7, e7⟩ := roles_delimited p ordered _ _ _ _ (List.append_cancel_left e6)
  exact ⟨⟨String.toList_inj.1 a1, String.toList_inj.1 a2, String.toList_inj.1 a3, String.toList_inj.1 a4,
    String.toList_inj.1 a5, a6, a7⟩, e7⟩

/-- C111: what is shown of a node is determined by its text. -/
theorem C111_node {ordered : Bool} {n n' : DiscoveryNode} (hn : PlainNode n) (hn' : PlainNode n')
    (e : n.str p ordered = n'.str p ordered) : SameShownNode p.fd n n' :=
  (node_cancel p (x := []) (y := []) hn hn' (by rw [e])).1

theorem count_join (f : Nat → String) (c : Char) (hc : c ≠ ',' ∧ c ≠ ' ') (l : List Nat) (h : ∀ i, (f i).toList.count c = 1) :
    (joinComma (l.map f)).toList.count c = l.length := by
  induction l with
  | nil => rfl
  | cons a l ih =>
    cases l with
    | nil => exact h a
    | cons b l =>
      have e : (joinComma ((a :: b :: l).map f)).toList =
          (f a).toList ++ ([',', ' '] ++ (joinComma ((b :: l).map f)).toList) := by
        simp only [List.map_cons, joinComma, String.toList_append, List.append_assoc]
        rfl
      rw [e, List.count_append, List.count_append, ih, h a, List.count_eq_zero_of_not_mem (by simp [hc.1, hc.2])]
      simp only [List.length_cons]
      omega

theorem object_count (i : Nat) : (p.object "opensearch_sdk_py.transport.extension_dependency.ExtensionDependency" i).toList.count '<' = 1 := by
  unfold Shown.object
  simp only [String.toList_append, List.count_append, String.toList_ofList]
  have h : ((p.address i).map fun d => hexDigit d).count '<' = 0 := by
    rw [List.count_eq_zero]
    intro hm
    obtain ⟨d, -, hd⟩ := List.mem_map.1 hm
    have : ∀ k < 16, (Nat.toDigits 16 k).headD '0' ≠ '<' := by decide +kernel
    exact this _ (Nat.mod_lt _ (by decide)) hd
  rw [h]
  decide +kernel

theorem objects_count (l : List ExtensionDependency) : ((listRepr (l.mapIdx fun i _ =>
    p.object "opensearch_sdk_py.transport.extension_dependency.ExtensionDependency" i)).toList).count '<' = l.length := by
  have e : (l.mapIdx fun i _ => p.object "opensearch_sdk_py.transport.extension_dependency.ExtensionDependency" i) =
      (List.range l.length).map fun i => p.object "opensearch_sdk_py.transport.extension_dependency.ExtensionDependency" i := by
    apply List.ext_getElem
    · simp
    · intro i h1 h2
      simp
  rw [e]
  unfold listRepr
  simp only [String.toList_append, List.count_append]
  rw [count_join _ '<' (by decide) _ (object_count p), List.length_range]
  rw [show "[".toList.count '<' = 0 from by decide, show "]".toList.count '<' = 0 from by decide]
  omega

/-- C111: what is shown of an extension node. -/
theorem C111_extension {ordered : Bool} {n n' : DiscoveryExtensionNode} (hn : PlainNode n.toDiscoveryNode)
    (hn' : PlainNode n'.toDiscoveryNode) (e : n.str p ordered = n'.str p ordered) : SameShownExtension p.fd n n' := by
  have e0 := congrArg String.toList e
  unfold DiscoveryExtensionNode.str at e0
  simp only [String.toList_append, List.append_assoc] at e0
  obtain ⟨h1, e1⟩ := node_cancel p hn hn' e0
  have e2 := List.append_cancel_left e1
  rw [show ", deps=".toList = ',' :: " deps=".toList from rfl, List.cons_append, List.cons_append] at e2
  obtain ⟨h2, e3⟩ := sep_cancel (version_no p (by decide) (by decide) (by decide))
    (version_no p (by decide) (by decide) (by decide)) e2
  have e4 := congrArg (List.count '<') (List.append_cancel_left e3)
  rw [objects_count, objects_count] at e4
  exact ⟨h1, String.toList_inj.1 h2, e4⟩

/-- C111: what is shown of an initialisation, which is what the host logs of one: both nodes. -/
theorem C111_init {m m' : InitializeExtensionRequest}
    (hm : PlainNode m.source_node ∧ PlainNode m.extension.toDiscoveryNode)
    (hm' : PlainNode m'.source_node ∧ PlainNode m'.extension.toDiscoveryNode)
    (e : initRecord p m = initRecord p m') :
    SameShownNode p.fd m.source_node m'.source_node ∧ SameShownExtension p.fd m.extension m'.extension := by
  have e0 := congrArg String.toList e
  unfold initRecord InitializeExtensionRequest.str at e0
  simp only [String.toList_append, List.append_assoc] at e0
  obtain ⟨h1, e1⟩ := node_cancel p hm.1 hm'.1 (List.append_cancel_left e0)
  exact ⟨h1, C111_extension p hm.2 hm'.2 (String.toList_inj.1 (List.append_cancel_left e1))⟩

/-- C111: the reply to an initialisation. -/
theorem C111_initialized {m m' : InitializeExtensionResponse} (hm : ',' ∉ m.name.toList) (hm' : ',' ∉ m'.name.toList)
    (e : m.str p = m'.str p) : m.name = m'.name ∧ m.implemented_interfaces = m'.implemented_interfaces := by
  have e0 := congrArg String.toList e
  unfold InitializeExtensionResponse.str at e0
  simp only [String.toList_append, List.append_assoc] at e0
  have e1 := List.append_cancel_left e0
  rw [show ", interfaces=".toList = ',' :: " interfaces=".toList from rfl, List.cons_append, List.cons_append] at e1
  obtain ⟨h1, e2⟩ := sep_cancel hm hm' e1
  have h2 := List.append_cancel_left e2
  exact ⟨String.toList_inj.1 h1, (strs_delimited p).inj h2⟩

/-- C111: an acknowledgement. -/
theorem C111_acknowledged {m m' : AcknowledgedResponse} (e : m.str = m'.str) : m.status = m'.status := by
  have e0 := congrArg String.toList e
  unfold AcknowledgedResponse.str at e0
  simp only [String.toList_append] at e0
  exact bool_delimited.inj (List.append_cancel_left e0)

/-- C111: the two handshakes of versions. -/
theorem C111_handshake {m m' : HandshakerResponse} (e : m.str p = m'.str p) :
    m.version.str p.fd = m'.version.str p.fd := by
  have e0 := congrArg String.toList e
  unfold HandshakerResponse.str at e0
  simp only [String.toList_append] at e0
  exact String.toList_inj.1 (List.append_cancel_left e0)

/-- C111: the reply to a service handshake: the node, the cluster and the version. -/
theorem C111_service {ordered : Bool} {m m' : ServiceHandshakeResponse}
    (hm : ∀ n, m.discovery_node = some n → PlainNode n) (hm' : ∀ n, m'.discovery_node = some n → PlainNode n)
    (hc : ',' ∉ m.cluster_name.toList) (hc' : ',' ∉ m'.cluster_name.toList) (e : m.str p ordered = m'.str p ordered) :
    (m.discovery_node = none ↔ m'.discovery_node = none) ∧
    (∀ n n', m.discovery_node = some n → m'.discovery_node = some n' → SameShownNode p.fd n n') ∧
    m.cluster_name = m'.cluster_name ∧ m.version.str p.fd = m'.version.str p.fd := by
  have key : ∀ {c c' : String} {v v' : Version}, ',' ∉ c.toList → ',' ∉ c'.toList →
      ", cluster name=".toList ++ (c.toList ++ (", version=".toList ++ (p.version v).toList)) =
      ", cluster name=".toList ++ (c'.toList ++ (", version=".toList ++ (p.version v').toList)) →
      c = c' ∧ v.str p.fd = v'.str p.fd := by
    intro c c' v v' h h' e
    have e1 := List.append_cancel_left e
    rw [show ", version=".toList = ',' :: " version=".toList from rfl, List.cons_append, List.cons_append] at e1
    obtain ⟨h1, e2⟩ := sep_cancel h h' e1
    exact ⟨String.toList_inj.1 h1, String.toList_inj.1 (List.append_cancel_left e2)⟩
  have e0 := congrArg String.toList e
  unfold ServiceHandshakeResponse.str at e0
  simp only [String.toList_append, List.append_assoc] at e0
  have hd : ∀ (n : DiscoveryNode) x, ∃ r, (n.str p ordered).toList ++ x = 'i' :: r :=
    fun n x => ⟨_, by rw [node_text]; rfl⟩
  cases h1 : m.discovery_node with
  | none =>
    cases h2 : m'.discovery_node with
    | none =>
      rw [h1, h2] at e0
      obtain ⟨a, b⟩ := key hc hc' (List.append_cancel_left e0)
      exact ⟨by simp, by simp, a, b⟩
    | some n =>
      rw [h1, h2] at e0
      simp only at e0
      obtain ⟨r, hr⟩ := hd n (", cluster name=".toList ++ (m'.cluster_name.toList ++ (", version=".toList ++ (p.version m'.version).toList)))
      rw [hr] at e0
      exact absurd (List.cons.inj e0).1 (by decide)
  | some n =>
    cases h2 : m'.discovery_node with
    | none =>
      rw [h1, h2] at e0
      simp only at e0
      obtain ⟨r, hr⟩ := hd n (", cluster name=".toList ++ (m.cluster_name.toList ++ (", version=".toList ++ (p.version m.version).toList)))
      rw [hr] at e0
      exact absurd (List.cons.inj e0).1 (by decide)
    | some n' =>
      rw [h1, h2] at e0
      obtain ⟨hs, e1⟩ := node_cancel p (hm n h1) (hm' n' h2) e0
      obtain ⟨a, b⟩ := key hc hc' e1
      refine ⟨by simp, ?_, a, b⟩
      intro n1 n1' g1 g2
      injection g1 with g1
      injection g2 with g2
      subst g1 g2
      exact hs

theorem restStatus_name_inj {v w : RestStatus} (h : v.name = w.name) : v = w := by
  have key : ∀ v : RestStatus, (PyEnum.members (α := RestStatus)).find? (fun u => u.name == v.name) = some v := by
    intro v; cases v <;> decide +kernel
  have h1 := key v
  rw [h, key w] at h1
  exact (Option.some.inj h1).symm

/-- C111: the reply to a REST request: status, content type, headers and the size of the content. -/
theorem C111_reply {r r' : RestExecuteOnExtensionResponse} (hc : ',' ∉ r.content_type.toList)
    (hc' : ',' ∉ r'.content_type.toList) (e : r.str p = r'.str p) :
    r.status = r'.status ∧ r.content_type = r'.content_type ∧ r.headers = r'.headers ∧
      r.content.length = r'.content.length := by
  have hs : ∀ v w : RestStatus, ',' ∉ v.name.toList ∧ (v.name = w.name → v = w) := by
    have h1 : ∀ v : RestStatus, ',' ∉ v.name.toList := by intro v; cases v <;> decide +kernel
    intro v w
    exact ⟨h1 v, fun e => restStatus_name_inj e⟩
  have h0 : ∀ r : RestExecuteOnExtensionResponse, (r.str p).toList = "status=".toList ++
      ((enumStr "RestStatus" (r.status.map RestStatus.name)).toList ++ ',' :: (" content_type=".toList ++
      (r.content_type.toList ++ ',' :: (" headers=".toList ++ ((p.listDict r.headers).toList ++ (", content=".toList ++
      ((toString r.content.length).toList ++ " byte(s)".toList))))))) := by
    intro r
    unfold RestExecuteOnExtensionResponse.str
    simp only [String.toList_append, List.append_assoc]
    rfl
  have e1 := congrArg String.toList e
  rw [h0, h0] at e1
  obtain ⟨a1, e2⟩ := enum_text (by
      intro s hs'; obtain ⟨v, _, rfl⟩ := Option.map_eq_some_iff.1 hs'; exact (hs v v).1)
    (by intro s hs'; obtain ⟨v, _, rfl⟩ := Option.map_eq_some_iff.1 hs'; exact (hs v v).1)
    (by decide) (by decide) (by decide) (List.append_cancel_left e1)
  obtain ⟨a2, e3⟩ := sep_cancel hc hc' (List.append_cancel_left e2)
  obtain ⟨a3, e4⟩ := listDict_delimited p _ _ _ _ (List.append_cancel_left e3)
  have a4 := List.append_cancel_right (List.append_cancel_left e4)
  refine ⟨?_, String.toList_inj.1 a2, a3, nat_text_inj (String.toList_inj.1 a4)⟩
  cases x : r.status <;> cases y : r'.status <;> rw [x, y] at a1 <;>
    simp only [Option.map_none, Option.map_some, reduceCtorEq, Option.some.injEq] at a1 ⊢
  exact (hs _ _).2 a1

/-- The header at the beginning of a text, up to a comma. -/
theorem header_cancel {h h' : TcpHeader} {v v' : Version} {x y : List Char} (hm : h.marker = h'.marker)
    (hv : h.version = .obj v) (hv' : h'.version = .obj v')
    (e : (h.str p).toList ++ ',' :: x = (h'.str p).toList ++ ',' :: y) :
    (h.request_id = h'.request_id ∧ h.size = h'.size ∧ h.flags = h'.flags ∧ v.str p.fd = v'.str p.fd) ∧ x = y := by
  rw [header_text p h hv, header_text p h' hv', hm] at e
  simp only [List.append_assoc, List.cons_append] at e
  obtain ⟨a1, a2⟩ := sep_cancel (version_no p (by decide) (by decide) (by decide))
    (version_no p (by decide) (by decide) (by decide)) (List.append_cancel_left e)
  obtain ⟨b1, b2⟩ := sep_cancel (flagText_facts h.flags h'.flags).1 (flagText_facts h'.flags h.flags).1
    (List.append_cancel_left a2)
  obtain ⟨c1, c2⟩ := sep_cancel (int_no _ (by decide) (by decide)) (int_no _ (by decide) (by decide))
    (List.append_cancel_left b2)
  obtain ⟨d1, d2⟩ := sep_cancel (int_no _ (by decide) (by decide)) (int_no _ (by decide) (by decide))
    (List.append_cancel_left c2)
  exact ⟨⟨int_text_inj (String.toList_inj.1 d1), int_text_inj (String.toList_inj.1 c1),
    (flagText_facts h.flags h'.flags).2 b1, String.toList_inj.1 a1⟩, d2⟩

theorem sets_perm : ∀ (l m : Dict String (List String)),
    l.map (fun kv => (kv.1, p.ho.order kv.2)) = m.map (fun kv => (kv.1, p.ho.order kv.2)) →
    List.Forall₂ (fun a b : String × List String => a.1 = b.1 ∧ a.2.Perm b.2) l m := by
  intro l
  induction l with
  | nil =>
    intro m hm
    cases m with
    | nil => exact .nil
    | cons b m => cases hm
  | cons a l ih =>
    intro m hm
    cases m with
    | nil => cases hm
    | cons b m =>
      obtain ⟨c1, c2⟩ := List.cons.inj hm
      obtain ⟨c3, c4⟩ := Prod.mk.inj c1
      exact .cons ⟨c3, (p.ho.perm a.2).symm.trans (c4 ▸ p.ho.perm b.2)⟩ (ih m c2)

/-- C111: the record of a reply that is sent determines its header, its thread context, the text of its message and the number
of bytes sent; `features` are the same (the host sends none). -/
theorem C111_sent {m m' : OutboundResponse} {message message' : String} {v v' : Version}
    (hm : m.tcp_header.marker = m'.tcp_header.marker) (hv : m.tcp_header.version = .obj v)
    (hv' : m'.tcp_header.version = .obj v') (hf : m.features = m'.features)
    (e : sentRecord p m message = sentRecord p m' message') :
    m.tcp_header.request_id = m'.tcp_header.request_id ∧ m.tcp_header.size = m'.tcp_header.size ∧
    m.tcp_header.flags = m'.tcp_header.flags ∧ v.str p.fd = v'.str p.fd ∧ SameContext m.ctx m'.ctx ∧ message = message' ∧
    (m.writeTo p.ho).out.length = (m'.writeTo p.ho).out.length := by
  have h0 : ∀ (m : OutboundResponse) (message : String), (sentRecord p m message).toList =
      "> ".toList ++ ((m.tcp_header.str p).toList ++ ',' :: (" ctx=req=".toList ++ ((p.dict m.ctx.request_headers).toList ++
      (", res=".toList ++ ((p.setDict m.ctx.response_headers).toList ++ (", ".toList ++ (message.toList ++
      (", features=".toList ++ ((p.strs m.features).toList ++ (", size".toList ++ ('=' ::
        ((toString (m.writeTo p.ho).out.length).toList ++ " byte(s)".toList)))))))))))) := by
    intro m message
    unfold sentRecord OutboundResponse.str OutboundMessage.str ThreadContext.str
    simp only [String.toList_append, List.append_assoc, Option.getD_some]
    rfl
  have e1 := congrArg String.toList e
  rw [h0, h0] at e1
  obtain ⟨⟨a1, a2, a3, a4⟩, e2⟩ := header_cancel p hm hv hv' (List.append_cancel_left e1)
  obtain ⟨b1, e3⟩ := dict_delimited p _ _ _ _ (List.append_cancel_left e2)
  obtain ⟨b2, e4⟩ := setDict_delimited p (List.append_cancel_left e3)
  have e5 := List.append_cancel_left e4
  rw [hf] at e5
  generalize ((m.writeTo p.ho).out.length) = n at e5 ⊢
  generalize ((m'.writeTo p.ho).out.length) = n' at e5 ⊢
  have e6 := congrArg List.reverse e5
  simp only [List.reverse_append, List.reverse_cons, List.append_assoc, List.cons_append, List.nil_append] at e6
  have hd : ∀ n : Nat, '=' ∉ ((toString n).toList).reverse := by
    intro n
    rw [List.mem_reverse]
    exact int_no (n : Int) (by decide) (by decide)
  obtain ⟨c1, c2⟩ := sep_cancel (hd n) (hd n') (List.append_cancel_left e6)
  have c3 := List.append_cancel_left (List.append_cancel_left (List.append_cancel_left c2))
  exact ⟨a1, a2, a3, a4, ⟨b1, sets_perm p _ _ b2⟩, String.toList_inj.1 (List.reverse_inj.1 c3),
    nat_text_inj (String.toList_inj.1 (List.reverse_inj.1 c1))⟩

/-- C111: the text of a response that was read determines its header, its thread context and its features. -/
theorem C111_response {m m' : OutboundResponse} {v v' : Version}
    (hm : m.tcp_header.marker = m'.tcp_header.marker) (hv : m.tcp_header.version = .obj v)
    (hv' : m'.tcp_header.version = .obj v') (e : m.str p none = m'.str p none) :
    m.tcp_header.request_id = m'.tcp_header.request_id ∧ m.tcp_header.size = m'.tcp_header.size ∧
    m.tcp_header.flags = m'.tcp_header.flags ∧ v.str p.fd = v'.str p.fd ∧ SameContext m.ctx m'.ctx ∧
    m.features = m'.features := by
  have h0 : ∀ (m : OutboundResponse), (m.str p none).toList =
      (m.tcp_header.str p).toList ++ ',' :: (" ctx=req=".toList ++ ((p.dict m.ctx.request_headers).toList ++
      (", res=".toList ++ ((p.setDict m.ctx.response_headers).toList ++ (", None, features=".toList ++
        (p.strs m.features).toList))))) := by
    intro m
    unfold OutboundResponse.str OutboundMessage.str ThreadContext.str
    simp only [String.toList_append, List.append_assoc, Option.getD_none]
    rfl
  have e1 := congrArg String.toList e
  rw [h0, h0] at e1
  obtain ⟨⟨a1, a2, a3, a4⟩, e2⟩ := header_cancel p hm hv hv' e1
  obtain ⟨b1, e3⟩ := dict_delimited p _ _ _ _ (List.append_cancel_left e2)
  obtain ⟨b2, e4⟩ := setDict_delimited p (List.append_cancel_left e3)
  have b3 := (strs_delimited p).inj (List.append_cancel_left e4)
  exact ⟨a1, a2, a3, a4, ⟨b1, sets_perm p _ _ b2⟩, b3⟩

/-- C111: the request of a version handshake: whether it has a version, and which. -/
theorem C111_handshake_request {m m' : HandshakerRequest} (e : m.str p = m'.str p) :
    m.version.map (Version.str p.fd) = m'.version.map (Version.str p.fd) := by
  have e0 := congrArg String.toList e
  unfold HandshakerRequest.str at e0
  simp only [String.toList_append] at e0
  have e1 := List.append_cancel_left e0
  have hN : ∀ v : Version, "None".toList ≠ (p.version v).toList := by
    intro v hv
    have : 'N' ∈ (p.version v).toList := by rw [← hv]; decide
    exact version_no p (by decide) (by decide) (by decide) this
  cases h1 : m.version with
  | none =>
    cases h2 : m'.version with
    | none => rfl
    | some v => rw [h1, h2] at e1; exact absurd e1 (hN v)
  | some v =>
    cases h2 : m'.version with
    | none => rw [h1, h2] at e1; exact absurd e1.symm (hN v)
    | some w =>
      rw [h1, h2] at e1
      exact congrArg some (String.toList_inj.1 e1)

/-- A node with a name, without attributes or roles. -/
def plainSample (name : String) : DiscoveryNode where
  node_name := name
  node_id := "n-1"
  ephemeral_id := "e"
  host_name := "localhost"
  host_address := "127.0.0.1"
  address := ⟨2130706433, "localhost", 9300⟩
  attributes := []
  roles := []
  version := Version.new 2100099

example : PlainNode (plainSample "my node") := by unfold PlainNode; decide +kernel

-- two names, two texts
example : (plainSample "my node").str p true ≠ (plainSample "your node").str p true := fun e =>
  absurd (C111_node p (by unfold PlainNode; decide +kernel) (by unfold PlainNode; decide +kernel) e).node_name (by decide +kernel)

example : (plainSample "my node").str p true =
    "id=n-1, version=2.10.0.99, name=my node, host=localhost, addr=127.0.0.1, attr={}, roles=OrderedSet([])" := by
  unfold DiscoveryNode.str
  change _ ++ _ ++ _ ++ (Version.new 2100099).str p.fd ++ _ ++ _ ++ _ ++ _ ++ _ ++ _ ++ _ ++ "{}" ++ _ ++ "OrderedSet([])" = _
  rw [show (Version.new 2100099).str p.fd = "2.10.0.99" from
    (C17_string p.fd 2100099 (by decide)).trans (by decide +kernel)]
  decide +kernel

example : TaskId.str ⟨"a, id=b", some (-1)⟩ = "node=a, id=b, id=-1" ∧ TaskId.str ⟨"", none⟩ = "node=, id=None" := by
  decide +kernel

example : rawRecord "<" [69, 83, 0] = "< #b'ES\\x00', size=3 byte(s)" := by decide +kernel

example : RestExecuteOnExtensionResponse.str p { status := some .OK, content_type := "text/plain", content := [1, 2] } =
    "status=RestStatus.OK, content_type=text/plain, headers={}, content=2 byte(s)" := by
  unfold RestExecuteOnExtensionResponse.str
  change _ ++ _ ++ _ ++ _ ++ _ ++ "{}" ++ _ ++ _ ++ _ = _
  decide +kernel

section
variable (p : Shown)
example := C111_acknowledged (m := ⟨true⟩) (m' := ⟨true⟩) rfl
theorem plain_sample : PlainNode (plainSample "my node") := by unfold PlainNode; decide +kernel
example := C111_extension p (ordered := true) (n := ⟨plainSample "my node", Version.new 3000099, []⟩)
  (n' := ⟨plainSample "my node", Version.new 3000099, []⟩) plain_sample plain_sample rfl
example := C111_init p (m := ⟨⟨"a", some 1⟩, plainSample "my node", ⟨plainSample "my node", Version.new 3000099, []⟩⟩)
  (m' := ⟨⟨"b", some 2⟩, plainSample "my node", ⟨plainSample "my node", Version.new 3000099, []⟩⟩)
  ⟨plain_sample, plain_sample⟩ ⟨plain_sample, plain_sample⟩ rfl
example := C111_service p (ordered := true) (m := ⟨some (plainSample "my node"), "c", Version.new 3000099⟩)
  (m' := ⟨some (plainSample "my node"), "c", Version.new 3000099⟩) (fun _ h => by cases h; exact plain_sample)
  (fun _ h => by cases h; exact plain_sample) (by decide) (by decide) rfl
example := C111_response p (m := responseIn (sampleAck true 3)) (m' := responseIn (sampleAck true 3)) rfl
  (v := Version.new 2070099) (v' := Version.new 2070099) (by decide +kernel) (by decide +kernel) rfl
example := C111_sent p (m := responseIn (sampleAck true 3)) (m' := responseIn (sampleAck true 3)) (message := "status=True")
  (message' := "status=True") rfl (v := Version.new 2070099) (v' := Version.new 2070099) (by decide +kernel) (by decide +kernel)
  rfl rfl
example := C111_handshake p (m := ⟨Version.new 3000099⟩) (m' := ⟨Version.new 3000099⟩) rfl
example := C111_initialized p (m := ⟨"hello", ["Extension"]⟩) (m' := ⟨"hello", ["Extension"]⟩) (by decide) (by decide) rfl
example := C111_raw (direction := "<") (data := [69, 83, 0]) (data' := [69, 83, 0]) rfl
example := C111_reply p (r := { status := some .OK, content_type := "text/plain", content := [1, 2] })
  (r' := { status := some .OK, content_type := "text/plain", content := [3, 4] }) (by decide) (by decide) rfl
example := C111_task (t := ⟨"n", some 1⟩) (t' := ⟨"n", some 1⟩) rfl
end

end Verif
