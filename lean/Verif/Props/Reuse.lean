import Verif.Lemmas.Reuse
import Verif.Lemmas.Rest
import Verif.Spec.Domains
/-!
# C116: reading into an object that was used before
-/

namespace Verif
open Py StreamInput

/-- C116, for every class but the REST request: reading the same bytes into any two objects of a class ends the same way, and after a
reading that succeeds each attribute of the class that is on the wire is set, and has the same value in both objects. -/
theorem C116_partial (k : Readable) (hk : k ≠ .extensionRestRequest) (d d' : PyObject) (bs : Bytes) :
    (k.into d bs).2 = (k.into d' bs).2 ∧
    ∀ rest, (k.into d bs).2 = .ok ((), rest) → ∀ a ∈ k.wire, ∃ v,
      (k.into d bs).1.get? a = some v ∧ (k.into d' bs).1.get? a = some v := by
  have h := said_all k hk d bs
  have h' := said_all k hk d' bs
  cases hs : k.said bs with
  | error e =>
    rw [hs] at h h'
    dsimp only at h h'
    refine ⟨h.trans h'.symm, fun rest hr => ?_⟩
    rw [h] at hr
    cases hr
  | ok p =>
    rw [hs] at h h'
    dsimp only at h h'
    rw [h, h']
    refine ⟨rfl, fun rest _ a ha => ?_⟩
    refine get?_update_mem ?_
    rw [List.map_fst_zip (Nat.le_of_eq (said_length k hs).symm)]
    exact ha

/-- C116, for every class but the REST request: the reading raises exactly if the bytes are not those of an object of the class, with
the same exception, and otherwise the attributes that are on the wire have the values that the bytes say. -/
theorem C116_said_partial (k : Readable) (hk : k ≠ .extensionRestRequest) (d : PyObject) (bs : Bytes) :
    (∀ e, (k.into d bs).2 = .error e ↔ k.said bs = .error e) ∧
    ∀ v rest, k.said bs = .ok (v, rest) → (k.into d bs).2 = .ok ((), rest) ∧ v.length = k.wire.length ∧
      ∀ a ∈ k.wire, (k.into d bs).1.get? a = Dict.get? (k.wire.zip v) a := by
  have h := said_all k hk d bs
  cases hs : k.said bs with
  | error e =>
    rw [hs] at h
    dsimp only at h
    rw [h]
    refine ⟨fun e' => ⟨fun x => by cases x; rfl, fun x => by cases x; rfl⟩, fun v rest x => by cases x⟩
  | ok p =>
    obtain ⟨v, rest⟩ := p
    rw [hs] at h
    dsimp only at h
    rw [h]
    refine ⟨fun e' => ⟨fun x => by (cases x), fun x => by (cases x)⟩, fun v' rest' x => ?_⟩
    cases x
    have hl := said_length k hs
    have hm := List.map_fst_zip (Nat.le_of_eq hl.symm)
    refine ⟨rfl, hl, fun a ha => get?_update_nodup ?_ ?_⟩
    · rw [hm]; exact wire_nodup k
    · rw [hm]; exact ha

/-- C116: an attribute that is not on the wire is left as it was, whether the reading succeeds or raises. -/
theorem C116_others (k : Readable) (d : PyObject) (bs : Bytes) (a : String) (h : a ∉ k.wire) :
    (k.into d bs).1.get? a = d.get? a := keeps_all k d bs a h

/-- A task id object used before, read from the bytes of the empty task id (a node id of length zero): the old id is gone. -/
example :
    let d : PyObject := [("node_id", .str "n1"), ("id", .int 7), ("note", .str "x")]
    (Readable.taskId.into d [0, 9]).2 = .ok ((), [9]) ∧ Readable.taskId.said [0, 9] = .ok ([.str "", .none], [9]) ∧
    (Readable.taskId.into d [0, 9]).1 = [("node_id", .str ""), ("id", .none), ("note", .str "x")] := ⟨rfl, rfl, rfl⟩
example := C116_partial .taskId (by decide) [("node_id", .str "n1"), ("id", .int 7)] [] [0, 9]
example := (C116_said_partial .taskId (by decide) [("node_id", .str "n1"), ("id", .int 7)] [0, 9]).2 [.str "", .none] [9] rfl
example := C116_others .taskId [("note", .str "x")] [0, 9] "note" (by decide)

/-- C116, for the REST request: an object with the media type `m` is read as a new one with that media type. -/
theorem C116_rest_partial (d : PyObject) (m : String) (h : d.get? "media_type" = some (.str m)) (bs : Bytes) :
    (∀ e, (Readable.extensionRestRequest.into d bs).2 = .error e ↔ ExtensionRestRequest.readFrom { media_type := m } bs = .error e) ∧
    ∀ r rest, ExtensionRestRequest.readFrom { media_type := m } bs = .ok (r, rest) →
      (Readable.extensionRestRequest.into d bs).2 = .ok ((), rest) ∧
      ∀ a ∈ Readable.extensionRestRequest.wire,
        (Readable.extensionRestRequest.into d bs).1.get? a = Dict.get? (Readable.extensionRestRequest.wire.zip r.attributes) a := by
  have hd : d.update [("media_type", .str m)] = d := set_same h
  have hr := does_rest m d bs
  rw [hd] at hr
  unfold Readable.into
  cases hs : ExtensionRestRequest.readFrom { media_type := m } bs with
  | error e =>
    rw [hs] at hr
    dsimp only at hr
    dsimp only
    rw [hr]
    exact ⟨fun e' => ⟨fun x => by cases x; rfl, fun x => by cases x; rfl⟩, fun v rest x => by cases x⟩
  | ok p =>
    obtain ⟨r, rest⟩ := p
    rw [hs] at hr
    dsimp only at hr
    dsimp only
    rw [hr]
    refine ⟨fun e' => ⟨fun x => by (cases x), fun x => by (cases x)⟩, fun v' rest' x => ?_⟩
    cases x
    refine ⟨rfl, fun a ha => ?_⟩
    obtain ⟨v, h1, h2⟩ := get?_update_mem (d := d) (d' := []) (a := a) (l := [("media_type", Attr.str m), ("parent_task_id", .task r.parent_task_id),
      ("method", match r.method with | some m => .method m | none => .none), ("uri", .str r.uri), ("path", .str r.path),
      ("params", .dict r.params), ("headers", .listDict r.headers), ("media_type", .str r.media_type), ("_content", .bytes r.content_),
      ("principal_identifier_token", .str r.principal_identifier_token),
      ("http_version", match r.http_version with | some v => .http v | none => .none)]) (by
        revert a
        show ∀ a ∈ ["parent_task_id", "method", "uri", "path", "params", "headers", "media_type", "_content",
          "principal_identifier_token", "http_version"], a ∈ ["media_type", "parent_task_id", "method", "uri", "path", "params", "headers", "media_type", "_content",
          "principal_identifier_token", "http_version"]
        decide)
    refine Eq.trans h1 (h2.symm.trans ?_)
    unfold Readable.wire at ha
    simp only [List.mem_cons, List.not_mem_nil, or_false] at ha
    rcases ha with rfl | rfl | rfl | rfl | rfl | rfl | rfl | rfl | rfl | rfl <;> rfl

/-- C116 is false of the REST request: if the request on the wire has no media type, the object keeps the one it had. -/
theorem C116_media_violated (d : PyObject) (m : String) (h : d.get? "media_type" = some (.str m)) (r : ExtensionRestRequest)
    (ok : RequestOK r) (hr : r.media_type = "") (rest : Bytes) :
    (Readable.extensionRestRequest.into d (r.writeTo.out ++ rest)).2 = .ok ((), rest) ∧
    (Readable.extensionRestRequest.into d (r.writeTo.out ++ rest)).1.get? "media_type" = some (.str m) := by
  have h1 := (rt_restRequest ok { media_type := m }).2 rest
  have h2 := (C116_rest_partial d m h _).2 _ _ h1
  refine ⟨h2.1, ?_⟩
  rw [h2.2 "media_type" (by decide)]
  rw [hr, if_pos rfl]
  rfl

/-- A request without a media type, and an object that had one. -/
example : RequestOK { method := some .GET, uri := "/a", path := "/a", http_version := some .HTTP_1_1 } ∧
    Dict.get? ([("media_type", .str "text/plain")] : PyObject) "media_type" = some (.str "text/plain") :=
  ⟨by constructor <;> decide +kernel, rfl⟩
example := C116_rest_partial [("media_type", .str "text/plain")] "text/plain" rfl
  (ExtensionRestRequest.writeTo { method := some .GET, uri := "/a", path := "/a", http_version := some .HTTP_1_1 }).out
example := C116_media_violated [("media_type", .str "text/plain")] "text/plain" rfl
  { method := some .GET, uri := "/a", path := "/a", http_version := some .HTTP_1_1 } (by constructor <;> decide +kernel) rfl [7]

/-- C116 is false of a reading that raises: the attributes read before that are new, the others old.  Here the key of an integer setting
is not UTF-8. -/
theorem C116_failed_violated (a b lo hi : Int) (key : String) (ha : -(2 ^ 31) ≤ a ∧ a < 2 ^ 31) (hb : -(2 ^ 31) ≤ b ∧ b < 2 ^ 31)
    (rest : Bytes) :
    Readable.integerParser.into [("key", .str key), ("min_value", .int lo), ("max_value", .int hi), ("is_filtered", .bool true)]
        ((StreamOutput.writeInt a).out ++ ((StreamOutput.writeInt b).out ++ (1 :: 0xFF :: rest))) =
      ([("key", .str key), ("min_value", .int a), ("max_value", .int b), ("is_filtered", .bool true)], .error .unicode) := by
  have h1 := (rt_int ha.1 ha.2).2 ((StreamOutput.writeInt b).out ++ (1 :: 0xFF :: rest))
  have h2 := (rt_int hb.1 hb.2).2 (1 :: 0xFF :: rest)
  have h3 : readString (1 :: 0xFF :: rest) = .error .unicode := by
    have hd : decodeUtf8? [0xFF] = none := by decide +kernel
    have hn : readArraySize (1 :: 0xFF :: rest) = .ok (1, 0xFF :: rest) := by
      have := (rt_arraySize (n := 1) (by decide)).2 (0xFF :: rest)
      exact this
    have hb : readBytes 1 (0xFF :: rest) = .ok ([0xFF], rest) := readBytes_append [0xFF] rest
    unfold readString
    rw [Reader.bind_ok hn, Reader.bind_ok hb]
    unfold decodeStr
    rw [hd]
    rfl
  generalize (StreamOutput.writeInt b).out ++ (1 :: 0xFF :: rest) = y at h1 h2
  generalize (StreamOutput.writeInt a).out ++ y = x at h1
  show Into.intParser readInt _ _ = _
  unfold Into.intParser
  simp only [Bind.bind, Into.bind, Into.read, Into.assign, h1, h2, h3]
  rfl

example := C116_failed_violated 5 9 0 100 "k" (by decide) (by decide) [3]

/-- The two parts of reading a message: the header, and the rest. -/
private def headerOf : Option TcpHeader → Reader TcpHeader
  | some h => pure h
  | none => TcpHeader.readFrom

private def afterHeader (self : OutboundMessage) (h : TcpHeader) : Reader OutboundMessage := do
  let ctx ← ThreadContext.readFrom
  if h.variable_header_size > 0 then
    let vb ← readBytes (h.variable_header_size - ctx.size)
    return { self with tcp_header := h, ctx := ctx, variable_bytes := some vb }
  else
    return { self with tcp_header := h, ctx := ctx }

private theorem readFrom_parts (self : OutboundMessage) (h : Option TcpHeader) :
    self.readFrom h = (headerOf h >>= afterHeader self) := by
  cases h <;> rfl

/-- C116, for messages: reading the same bytes into any two request messages ends the same way; the header and the context are those on
the wire, and so are the features and the action if the header announces them. -/
theorem C116_message_partial (self self' : OutboundRequest) (h : Option TcpHeader) (bs : Bytes) :
    (∀ e, self.readFrom h bs = .error e ↔ self'.readFrom h bs = .error e) ∧
    ∀ m rest, self.readFrom h bs = .ok (m, rest) → ∃ m', self'.readFrom h bs = .ok (m', rest) ∧
      m'.tcp_header = m.tcp_header ∧ m'.ctx = m.ctx ∧
      (0 < m.tcp_header.variable_header_size →
        m'.variable_bytes = m.variable_bytes ∧ m'.features = m.features ∧ m'.action = m.action) := by
  unfold OutboundRequest.readFrom
  rw [readFrom_parts, readFrom_parts]
  unfold afterHeader
  simp only [Bind.bind, Reader.bind]
  rcases hh : headerOf h bs with e | ⟨t, r1⟩
  · exact ⟨fun e' => Iff.rfl, fun m rest x => by cases x⟩
  dsimp only
  rcases hc : ThreadContext.readFrom r1 with e | ⟨c, r2⟩
  · exact ⟨fun e' => Iff.rfl, fun m rest x => by cases x⟩
  dsimp only
  by_cases hv : t.variable_header_size > 0
  · simp only [if_pos hv, Reader.bind]
    rcases hb : readBytes (t.variable_header_size - c.size) r2 with e | ⟨vb, r3⟩
    · exact ⟨fun e' => Iff.rfl, fun m rest x => by cases x⟩
    simp only [Pure.pure, Reader.pure, Reader.bind, if_pos hv, Option.getD_some]
    rcases hp : Reader.lift (OutboundRequest.parseVariable vb) r3 with e | ⟨p, r4⟩
    · exact ⟨fun e' => Iff.rfl, fun m rest x => by cases x⟩
    refine ⟨fun e' => ⟨fun x => by (cases x), fun x => by (cases x)⟩, fun m rest x => ?_⟩
    cases x
    exact ⟨_, rfl, rfl, rfl, fun _ => ⟨rfl, rfl, rfl⟩⟩
  · simp only [Pure.pure, Reader.pure, if_neg hv]
    refine ⟨fun e' => ⟨fun x => by (cases x), fun x => by (cases x)⟩, fun m rest x => ?_⟩
    cases x
    exact ⟨_, rfl, rfl, rfl, fun h => absurd h hv⟩

/-- C116 is false of messages: without features and an action on the wire the object keeps those it had, and in any case it keeps the
body it had, which is not on the wire, and writes it after the header that was read. -/
theorem C116_message_violated (self : OutboundRequest) (h : Option TcpHeader) (bs rest : Bytes) (m : OutboundRequest)
    (hr : self.readFrom h bs = .ok (m, rest)) :
    m.message_bytes = self.message_bytes ∧
    (∀ body ho, self.message_bytes = some body → (m.writeTo ho).err = none → ∃ before, (m.writeTo ho).out = before ++ body) ∧
    (¬ 0 < m.tcp_header.variable_header_size →
      m.variable_bytes = self.variable_bytes ∧ m.features = self.features ∧ m.action = self.action) := by
  have key : m.message_bytes = self.message_bytes ∧ (¬ 0 < m.tcp_header.variable_header_size →
      m.variable_bytes = self.variable_bytes ∧ m.features = self.features ∧ m.action = self.action) := by
    unfold OutboundRequest.readFrom at hr
    rw [readFrom_parts] at hr
    unfold afterHeader at hr
    simp only [Bind.bind, Reader.bind] at hr
    rcases hh : headerOf h bs with e | ⟨t, r1⟩
    · rw [hh] at hr; cases hr
    rw [hh] at hr
    dsimp only at hr
    rcases hc : ThreadContext.readFrom r1 with e | ⟨c, r2⟩
    · rw [hc] at hr; cases hr
    rw [hc] at hr
    dsimp only at hr
    by_cases hv : t.variable_header_size > 0
    · simp only [if_pos hv, Reader.bind] at hr
      rcases hb : readBytes (t.variable_header_size - c.size) r2 with e | ⟨vb, r3⟩
      · rw [hb] at hr; cases hr
      rw [hb] at hr
      simp only [Pure.pure, Reader.pure, Reader.bind, if_pos hv, Option.getD_some] at hr
      rcases hp : Reader.lift (OutboundRequest.parseVariable vb) r3 with e | ⟨p, r4⟩
      · rw [hp] at hr; cases hr
      rw [hp] at hr
      cases hr
      exact ⟨rfl, fun h => absurd hv h⟩
    · simp only [Pure.pure, Reader.pure, if_neg hv] at hr
      cases hr
      exact ⟨rfl, fun _ => ⟨rfl, rfl, rfl⟩⟩
  refine ⟨key.1, fun body ho hb he => ?_, key.2⟩
  unfold OutboundMessage.writeTo at he ⊢
  rw [key.1, hb] at he ⊢
  have hw : (OutboundMessage.writeOpt (some body)).out = body := by
    unfold OutboundMessage.writeOpt
    dsimp only
    split
    · next h => rw [h]; rfl
    · rfl
  simp only [W.err_append] at he
  rw [W.out_append he.1, W.out_append he.2.1, W.out_append he.2.2.1, hw]
  exact ⟨m.tcp_header.writeTo.out ++ ((m.ctx.writeTo ho).out ++ (OutboundMessage.writeOpt m.variable_bytes).out), by
    simp only [List.append_assoc]⟩

/-- A message that was sent with a body and an action, and the bytes of a header that announces no variable part, then an empty context. -/
def usedMessage : OutboundRequest :=
  { tcp_header := { marker := [0x45, 0x53], size := 0, request_id := 1, status := 0, version := .none, variable_header_size := 0 }, ctx := {},
    variable_bytes := some [0, 1, 0x61], message_bytes := some [1, 2], features := [], action := "a" }
example : ∃ m, usedMessage.readFrom (some { marker := [0x45, 0x53], size := 21, request_id := 2, status := 0, version := .none, variable_header_size := 0 })
      [0, 0, 9] = .ok (m, [9]) ∧ m.tcp_header.request_id = 2 ∧ m.message_bytes = some [1, 2] ∧ m.action = "a" :=
  ⟨_, rfl, rfl, rfl, rfl⟩
example := C116_message_partial usedMessage { usedMessage with action := "b" }
  (some { marker := [0x45, 0x53], size := 21, request_id := 2, status := 0, version := .none, variable_header_size := 0 }) [0, 0, 9]
example := C116_message_violated usedMessage
  (some { marker := [0x45, 0x53], size := 21, request_id := 2, status := 0, version := .none, variable_header_size := 0 }) [0, 0, 9] [9] _ rfl

/-- C116, for responses: reading the same bytes into any two response messages ends the same way; the header and the context are those
on the wire, and so are the bytes after the context if the header announces them. -/
theorem C116_response_partial (self self' : OutboundResponse) (h : Option TcpHeader) (bs : Bytes) :
    (∀ e, self.readFrom h bs = .error e ↔ self'.readFrom h bs = .error e) ∧
    ∀ m rest, self.readFrom h bs = .ok (m, rest) → ∃ m', self'.readFrom h bs = .ok (m', rest) ∧
      m'.tcp_header = m.tcp_header ∧ m'.ctx = m.ctx ∧
      (0 < m.tcp_header.variable_header_size → m'.variable_bytes = m.variable_bytes) := by
  unfold OutboundResponse.readFrom
  rw [readFrom_parts, readFrom_parts]
  unfold afterHeader
  simp only [Bind.bind, Reader.bind]
  rcases hh : headerOf h bs with e | ⟨t, r1⟩
  · exact ⟨fun e' => Iff.rfl, fun m rest x => by cases x⟩
  dsimp only
  rcases hc : ThreadContext.readFrom r1 with e | ⟨c, r2⟩
  · exact ⟨fun e' => Iff.rfl, fun m rest x => by cases x⟩
  dsimp only
  by_cases hv : t.variable_header_size > 0
  · simp only [if_pos hv, Reader.bind]
    rcases hb : readBytes (t.variable_header_size - c.size) r2 with e | ⟨vb, r3⟩
    · exact ⟨fun e' => Iff.rfl, fun m rest x => by cases x⟩
    simp only [Pure.pure, Reader.pure]
    refine ⟨fun e' => ⟨fun x => by (cases x), fun x => by (cases x)⟩, fun m rest x => ?_⟩
    cases x
    exact ⟨_, rfl, rfl, rfl, fun _ => rfl⟩
  · simp only [Pure.pure, Reader.pure, if_neg hv]
    refine ⟨fun e' => ⟨fun x => by (cases x), fun x => by (cases x)⟩, fun m rest x => ?_⟩
    cases x
    exact ⟨_, rfl, rfl, rfl, fun h => absurd h hv⟩

/-- C116 is false of responses too: the object keeps the body and the features that it had, and also the bytes after the context if the
header announces none. -/
theorem C116_response_violated (self : OutboundResponse) (h : Option TcpHeader) (bs rest : Bytes) (m : OutboundResponse)
    (hr : self.readFrom h bs = .ok (m, rest)) :
    m.message_bytes = self.message_bytes ∧ m.features = self.features ∧
    (¬ 0 < m.tcp_header.variable_header_size → m.variable_bytes = self.variable_bytes) := by
  unfold OutboundResponse.readFrom at hr
  rw [readFrom_parts] at hr
  unfold afterHeader at hr
  simp only [Bind.bind, Reader.bind] at hr
  rcases hh : headerOf h bs with e | ⟨t, r1⟩
  · rw [hh] at hr; cases hr
  rw [hh] at hr
  dsimp only at hr
  rcases hc : ThreadContext.readFrom r1 with e | ⟨c, r2⟩
  · rw [hc] at hr; cases hr
  rw [hc] at hr
  dsimp only at hr
  by_cases hv : t.variable_header_size > 0
  · simp only [if_pos hv, Reader.bind] at hr
    rcases hb : readBytes (t.variable_header_size - c.size) r2 with e | ⟨vb, r3⟩
    · rw [hb] at hr; cases hr
    rw [hb] at hr
    simp only [Pure.pure, Reader.pure] at hr
    cases hr
    exact ⟨rfl, rfl, fun h => absurd hv h⟩
  · simp only [Pure.pure, Reader.pure, if_neg hv] at hr
    cases hr
    exact ⟨rfl, rfl, fun _ => rfl⟩

/-- A response that was sent with a body, and the bytes of another one without any. -/
def usedResponse : OutboundResponse :=
  { tcp_header := { marker := [0x45, 0x53], size := 0, request_id := 1, status := 1, version := .none, variable_header_size := 0 }, ctx := {},
    variable_bytes := none, message_bytes := some [1, 2], features := ["f"] }
example := C116_response_partial usedResponse { usedResponse with message_bytes := none }
  (some { marker := [0x45, 0x53], size := 21, request_id := 2, status := 1, version := .none, variable_header_size := 2 }) [0, 0, 9]
example := C116_response_violated usedResponse
  (some { marker := [0x45, 0x53], size := 21, request_id := 2, status := 1, version := .none, variable_header_size := 2 }) [0, 0, 9] [9] _ rfl
example : ∃ m, usedResponse.readFrom (some { marker := [0x45, 0x53], size := 21, request_id := 2, status := 1, version := .none, variable_header_size := 2 })
      [0, 0, 9] = .ok (m, [9]) ∧ m.tcp_header.request_id = 2 ∧ m.variable_bytes = some [] ∧ m.message_bytes = some [1, 2] :=
  ⟨_, rfl, rfl, rfl, rfl⟩

end Verif
