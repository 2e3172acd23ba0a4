import Verif.Lemmas.Display
import Verif.Props.Requests
import Verif.Lemmas.HostInv
import Verif.Spec.Flags
/-!
# What the texts of messages, and the log, tell (C97, C98, C99)
-/

namespace Verif
open Py StreamInput StreamOutput

variable (p : Shown)

/-! ## C98: one message, one line -/

theorem lit_node : OneLine "id=" ∧ OneLine ", version=" ∧ OneLine ", name=" ∧ OneLine ", host=" ∧
    OneLine ", addr=" ∧ OneLine ", attr=" ∧ OneLine ", roles=" := by decide +kernel

theorem lit_rest : OneLine "< " ∧ OneLine "http version=" ∧ OneLine ", method=" ∧ OneLine ", uri=" ∧
    OneLine ", path=" ∧ OneLine ", params=" ∧ OneLine ", " ∧
    OneLine "headers={self.headers}, media type={self.media_type}, content={len(self.content)} byte(s), pit={self.principal_identifier_token}" := by
  decide +kernel


theorem header_oneLine (h : TcpHeader) : OneLine (h.str p) := by
  have hv : OneLine (h.version.str p) := by
    cases h.version with
    | obj v => exact oneLine_version p v
    | none => exact (by decide +kernel : OneLine "None")
    | int n => exact oneLine_int n
  simp only [TcpHeader.str, oneLine_append]
  exact ⟨⟨⟨⟨⟨⟨⟨⟨⟨by decide +kernel, oneLine_bytesRepr _⟩, by decide +kernel⟩, hv⟩, by decide +kernel⟩, oneLine_strs p _⟩,
    by decide +kernel⟩, oneLine_int _⟩, by decide +kernel⟩, oneLine_int _⟩

theorem context_oneLine (c : ThreadContext) : OneLine (c.str p) := by
  simp only [ThreadContext.str, oneLine_append]
  exact ⟨⟨⟨by decide +kernel, oneLine_dict p _⟩, by decide +kernel⟩, oneLine_setDict p _⟩

theorem message_oneLine (m : OutboundMessage) (t : Option String) :
    OneLine (m.str p t) ↔ OneLine (t.getD "None") := by
  simp only [OutboundMessage.str, oneLine_append, header_oneLine, context_oneLine, true_and]
  exact ⟨fun h => h.2, fun h => ⟨by decide +kernel, h⟩⟩

theorem request_oneLine (m : OutboundRequest) (t : Option String) :
    OneLine (m.str p t) ↔ OneLine (t.getD "None") ∧ OneLine m.action := by
  simp only [OutboundRequest.str, oneLine_append, message_oneLine, oneLine_strs, and_true]
  exact ⟨fun h => ⟨h.1.1.1, h.2⟩, fun h => ⟨⟨⟨h.1, by decide +kernel⟩, by decide +kernel⟩, h.2⟩⟩

theorem response_oneLine (m : OutboundResponse) (t : Option String) :
    OneLine (m.str p t) ↔ OneLine (t.getD "None") := by
  simp only [OutboundResponse.str, oneLine_append, message_oneLine, oneLine_strs, and_true]
  exact ⟨fun h => h.1, fun h => ⟨h, by decide +kernel⟩⟩

/-- The records of a request frame. -/
theorem records_request {raw : Bytes} {req : OutboundRequest} {body : Bytes} (h : IsRequest raw req body) :
    receivedRecords p raw = ["< " ++ req.tcp_header.str p, "< " ++ req.str p none] := by
  obtain ⟨bl, hd, rest, h1, h2, h3⟩ := (parsesAsRequest_iff 0).1 h.1
  have e := (request_readFrom_ok h3).1
  have hq : hd.isRequest = true := by rw [← e]; exact h.2
  unfold receivedRecords
  simp only [h1, h2, h3, hq, if_true, e]

/-- The records of a response frame. -/
theorem records_response {raw : Bytes} {resp : OutboundResponse} {body : Bytes}
    (h : IsResponse raw resp body) :
    receivedRecords p raw = ["< " ++ resp.tcp_header.str p,
      if resp.tcp_header.isError then "< error " ++ resp.tcp_header.str p
      else "< response " ++ resp.str p none] := by
  obtain ⟨bl, hd, rest, h1, h2, h3⟩ := (parsesAsResponse_iff 0).1 h.1
  have e := (response_readFrom_ok h3).1
  have hq : hd.isRequest = false := by
    have := h.2
    rw [← e]
    unfold TcpHeader.isRequest
    rw [this]
    rfl
  unfold receivedRecords
  simp only [h1, h2, h3, hq, Bool.false_eq_true, if_false, e]
  split_ifs <;> rfl

/-- C98, as far as it holds: whatever bytes are received (well-formed or not), each record logged about
them takes one line, unless they are a request whose action has a line break in it.  Missing: requests
with such an action, for which it is false (`C98_forged_violated`). -/
theorem C98_received_partial (raw : Bytes)
    (ha : ∀ req body, IsRequest raw req body → OneLine req.action) :
    ∀ record ∈ receivedRecords p raw, OneLine record := by
  have hlt : OneLine "< " := by decide +kernel
  intro r hr
  unfold receivedRecords at hr
  cases hh : TcpHeader.readFrom raw with
  | error e => simp only [hh] at hr; cases hr
  | ok q =>
    obtain ⟨h, input⟩ := q
    cases hq : h.isRequest with
    | true =>
      obtain ⟨bl, hb, _⟩ := blankRequest_new 0
      cases hx : bl.readFrom (some h) input with
      | error e =>
        simp only [hh, hq, if_true, hb, hx, List.mem_singleton] at hr
        rw [hr]
        exact oneLine_append.2 ⟨hlt, header_oneLine p h⟩
      | ok y =>
        obtain ⟨req, body⟩ := y
        have hp := (parsesAsRequest_iff 0).2 ⟨bl, h, input, hb, hh, hx⟩
        have hi : IsRequest raw req body := ⟨hp, by rw [(request_readFrom_ok hx).1]; exact hq⟩
        simp only [hh, hq, if_true, hb, hx, List.mem_cons, List.not_mem_nil, or_false] at hr
        rcases hr with rfl | rfl
        · exact oneLine_append.2 ⟨hlt, header_oneLine p h⟩
        · exact oneLine_append.2 ⟨hlt, (request_oneLine p req none).2 ⟨by decide +kernel, ha req body hi⟩⟩
    | false =>
      obtain ⟨bl, hb, _⟩ := blankResponse_new 0
      cases hx : bl.readFrom (some h) input with
      | error e =>
        simp only [hh, hq, Bool.false_eq_true, if_false, hb, hx, List.mem_singleton] at hr
        rw [hr]
        exact oneLine_append.2 ⟨hlt, header_oneLine p h⟩
      | ok y =>
        obtain ⟨resp, body⟩ := y
        simp only [hh, hq, Bool.false_eq_true, if_false, hb, hx] at hr
        split_ifs at hr
        all_goals
          simp only [List.mem_cons, List.not_mem_nil, or_false] at hr
          rcases hr with rfl | rfl
          · exact oneLine_append.2 ⟨hlt, header_oneLine p h⟩
        · exact oneLine_append.2 ⟨by decide +kernel, header_oneLine p h⟩
        · exact oneLine_append.2 ⟨by decide +kernel, (response_oneLine p resp none).2 (by decide +kernel)⟩

/-- C98 is false, and log lines can be forged: for every line of text, every well-formed request frame
whose action is `before`, a line feed, and that text, makes the host log a record of which that text is a
line of its own. -/
theorem C98_forged_violated {frame : Bytes} {ctx : ThreadContext} {f : List String} {w : W} {id : Int}
    {hs cp : Bool} (before line : String) (hl : OneLine line)
    (h : RequestFrame frame ctx f w (before ++ "\n" ++ line) id hs cp) :
    ∃ record ∈ receivedRecords p frame, HasLine record line := by
  obtain ⟨_, _, req, h1, _, _, _, _, _, _, _, _, ha⟩ := frame_parses h []
  rw [List.append_nil] at h1
  refine ⟨"< " ++ req.str p none, by rw [records_request p h1]; simp, ?_⟩
  obtain ⟨t, ht⟩ : ∃ t : String, "< " ++ req.str p none = t ++ (before ++ "\n" ++ line) := by
    refine ⟨"< " ++ (req.toOutboundMessage.str p none ++ ", features=" ++ p.strs req.features ++
      ", action="), ?_⟩
    rw [OutboundRequest.str, ha]
    simp only [String.append_assoc]
  rw [ht]
  refine ⟨t.toList ++ (before.toList ++ ['\n']), [], ?_, hl.1, .inr ?_, .inl rfl⟩
  · simp only [String.toList_append, List.append_assoc, List.append_nil]
    rfl
  · rw [← List.append_assoc, List.getLast?_append]
    rfl

/-- C98: the record of a REST request takes one line exactly when its URI and its path do; whatever its
parameters, headers, content or token hold. -/
theorem C98_rest_partial (r : ExtensionRestRequest) :
    OneLine (restRecord p r) ↔ OneLine r.uri ∧ OneLine r.path := by
  have h1 : OneLine (enumStr "HttpVersion" (r.http_version.map HttpVersion.name)) := by
    cases r.http_version with
    | none => decide +kernel
    | some v => cases v <;> decide +kernel
  have h2 : OneLine (enumStr "RestMethod" (r.method.map RestMethod.name)) := by
    cases r.method with
    | none => decide +kernel
    | some v => cases v <;> decide +kernel
  obtain ⟨e0, e1, e2, e3, e4, e5, e6, e7⟩ := lit_rest
  unfold restRecord ExtensionRestRequest.str
  simp only [oneLine_append, h1, h2, oneLine_dict, and_true,
    true_and, e0, e1, e2, e3, e4, e5, e6, e7]

/-- The texts of a node that are shown as they are. -/
theorem node_oneLine (o : Bool) (n : DiscoveryNode) :
    OneLine (n.str p o) ↔
      OneLine n.node_id ∧ OneLine n.node_name ∧ OneLine n.host_name ∧ OneLine n.host_address := by
  obtain ⟨e1, e2, e3, e4, e5, e6, e7⟩ := lit_node
  unfold DiscoveryNode.str
  simp only [oneLine_append, oneLine_version, oneLine_dict, oneLine_roles, and_true,
    true_and, e1, e2, e3, e4, e5, e6, e7, and_assoc]

/-- C98: the record of an initialisation takes one line exactly when the ids, names, host names and host
addresses of both nodes do; whatever their attributes, roles and dependencies hold. -/
theorem C98_init_partial (m : InitializeExtensionRequest) :
    OneLine (initRecord p m) ↔ ∀ n ∈ [m.source_node, m.extension.toDiscoveryNode],
      OneLine n.node_id ∧ OneLine n.node_name ∧ OneLine n.host_name ∧ OneLine n.host_address := by
  have hd : OneLine (listRepr (m.extension.dependencies.mapIdx fun i _ =>
      p.object "opensearch_sdk_py.transport.extension_dependency.ExtensionDependency" i)) := by
    refine oneLine_listRepr ?_
    intro s hs
    obtain ⟨i, _, rfl⟩ := List.mem_mapIdx.1 hs
    exact oneLine_object p _ _ (by decide +kernel)
  unfold initRecord InitializeExtensionRequest.str DiscoveryExtensionNode.str
  simp only [oneLine_append, node_oneLine, oneLine_version, hd, and_true, List.forall_mem_cons]
  constructor
  · rintro ⟨_, ⟨⟨a, _⟩, ⟨b, _⟩, _⟩⟩
    exact ⟨a, b, by simp⟩
  · rintro ⟨a, b, _⟩
    exact ⟨by decide +kernel, ⟨a, by decide +kernel⟩, ⟨b, by decide +kernel⟩, by decide +kernel⟩

/-- C98: the record of a reply takes one line exactly when the text of the message in it does. -/
theorem C98_sent_partial (m : OutboundResponse) (message : String) :
    OneLine (sentRecord p m message) ↔ OneLine message := by
  unfold sentRecord
  simp only [oneLine_append, response_oneLine, oneLine_nat, Option.getD_some, and_true]
  exact ⟨fun h => h.1.1.2, fun h => ⟨⟨⟨by decide +kernel, h⟩, by decide +kernel⟩, by decide +kernel⟩⟩

/-- C98: the text of a REST reply takes one line exactly when its content type does; the content is not
shown. -/
theorem C98_reply_partial (r : RestExecuteOnExtensionResponse) :
    OneLine (r.str p) ↔ OneLine r.content_type := by
  have h1 : OneLine (enumStr "RestStatus" (r.status.map RestStatus.name)) := by
    cases r.status with
    | none => decide +kernel
    | some v => cases v <;> decide +kernel
  unfold RestExecuteOnExtensionResponse.str
  simp only [oneLine_append, h1, oneLine_listDict, oneLine_nat, and_true]
  exact ⟨fun h => h.1.1.1.2, fun h => ⟨⟨⟨⟨⟨by decide +kernel, by decide +kernel⟩, h⟩, by decide +kernel⟩, by decide +kernel⟩, by decide +kernel⟩⟩

/-- C98: a request that forges a line of the log. -/
example (p : Shown) : ∃ frame, RequestFrame frame sampleCtx ["f"] (W.emit [1, 2])
      ("x" ++ "\n" ++ "INFO:root:< shutting down") 8 false false ∧
    ∃ record ∈ receivedRecords p frame, HasLine record "INFO:root:< shutting down" := by
  have h : RequestFrame (sampleFrame (W.emit [1, 2]) ("x" ++ "\n" ++ "INFO:root:< shutting down") 8) sampleCtx
      ["f"] (W.emit [1, 2]) ("x" ++ "\n" ++ "INFO:root:< shutting down") 8 false false :=
    ⟨sampleOrder, Version.new 2070099, 0, 0, _, rfl, rfl, by decide +kernel, by decide +kernel, by decide +kernel,
      by decide +kernel, by decide +kernel, by decide +kernel⟩
  exact ⟨_, h, C98_forged_violated p "x" _ (by decide +kernel) h⟩

/-- C98: an ordinary request leaves two records, each on one line. -/
example (p : Shown) : (receivedRecords p sampleRestFrame).length = 2 ∧
    ∀ record ∈ receivedRecords p sampleRestFrame, OneLine record := by
  obtain ⟨_, _, req, q1, _, _, _, _, _, _, _, _, ha⟩ := frame_parses sampleRestFrame_ok []
  rw [List.append_nil] at q1
  refine ⟨by rw [records_request p q1]; rfl, C98_received_partial p _ fun req' body' h => ?_⟩
  obtain ⟨rfl, -⟩ := IsRequest.unique q1 h
  rw [ha]
  decide +kernel

end Verif
