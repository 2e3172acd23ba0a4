import Verif.Lemmas.Display
import Verif.Lemmas.Repr
import Verif.Props.Display
import Verif.Props.Header
import Verif.Props.Version
import Verif.Props.Requests
/-!
# What the texts of messages tell (C97, C99)
-/

namespace Verif
open Py StreamInput StreamOutput Spec

variable (p : Shown)

/-- What stands before the first `c` is determined. -/
theorem sep_cancel {c : Char} : ∀ {a b x y : List Char}, c ∉ a → c ∉ b → a ++ c :: x = b ++ c :: y →
    a = b ∧ x = y
  | [], [], x, y, _, _, h => ⟨rfl, (List.cons.inj h).2⟩
  | [], d :: b, x, y, _, hb, h => absurd (List.mem_cons.2 (.inl (List.cons.inj h).1)) hb
  | d :: a, [], x, y, ha, _, h => absurd (List.mem_cons.2 (.inl (List.cons.inj h).1.symm)) ha
  | d :: a, e :: b, x, y, ha, hb, h => by
    obtain ⟨h1, h2⟩ := List.cons.inj h
    obtain ⟨h3, h4⟩ := sep_cancel (fun m => ha (List.mem_cons_of_mem _ m))
      (fun m => hb (List.mem_cons_of_mem _ m)) h2
    exact ⟨by rw [h1, h3], h4⟩

/-- Characters of a number. -/
theorem int_chars (i : Int) : ∀ c ∈ (toString i).toList, c.isDigit = true ∨ c = '-' := by
  intro c hc
  cases i with
  | ofNat n =>
    change c ∈ (toString n).toList at hc
    rw [toString_nat_toList] at hc
    exact .inl (toDigits_isDigit n c hc)
  | negSucc n =>
    rw [toString_int_neg, String.toList_append, toString_nat_toList] at hc
    rcases List.mem_append.1 hc with hc | hc
    · exact .inr (List.mem_singleton.1 hc)
    · exact .inl (toDigits_isDigit _ c hc)

theorem int_no (i : Int) {c : Char} (hc : c.isDigit = false) (hm : c ≠ '-') : c ∉ (toString i).toList := by
  intro h
  rcases int_chars i c h with h | h
  · rw [hc] at h; cases h
  · exact hm h

theorem nat_text_inj {m n : Nat} (h : toString m = toString n) : m = n := by
  have h1 := congrArg String.toList h
  rw [toString_nat_toList, toString_nat_toList] at h1
  have h2 := congrArg (fun l => Nat.ofDigitChars 10 l 0) h1
  simpa only [Nat.ofDigitChars_ten_toDigits] using h2

theorem int_text_inj {i j : Int} (h : toString i = toString j) : i = j := by
  have hneg : ∀ m n : Nat, toString m ≠ "-" ++ toString n := by
    intro m n h
    have h1 := congrArg String.toList h
    rw [toString_nat_toList, String.toList_append] at h1
    have : '-' ∈ Nat.toDigits 10 m := by rw [h1]; simp
    exact absurd (toDigits_isDigit m _ this) (by decide)
  cases i with
  | ofNat m =>
    cases j with
    | ofNat n => exact congrArg _ (nat_text_inj h)
    | negSucc n => rw [toString_int_neg] at h; exact absurd h (hneg _ _)
  | negSucc m =>
    cases j with
    | ofNat n => rw [toString_int_neg] at h; exact absurd h.symm (hneg _ _)
    | negSucc n =>
      rw [toString_int_neg, toString_int_neg] at h
      have h1 := congrArg String.toList h
      rw [String.toList_append, String.toList_append] at h1
      have := nat_text_inj (String.toList_inj.1 (List.append_cancel_left h1))
      rw [Nat.succ.inj this]

/-- Printable ASCII characters that `repr` shows as they are. -/
theorem strRepr_ascii (pr : Char → Bool) {s : String}
    (h : ∀ c ∈ s.toList, c ≠ '\'' ∧ c ≠ '\\' ∧ 32 ≤ c.toNat ∧ c.toNat < 127) :
    strRepr pr s = String.ofList ('\'' :: (s.toList ++ ['\''])) := by
  have hq : reprQuote s.toList = '\'' := by
    unfold reprQuote
    rw [if_neg]
    exact fun e => (h _ e.1).1 rfl
  have hf : s.toList.flatMap (reprChar pr '\'') = s.toList := by
    have : ∀ l : List Char, (∀ c ∈ l, c ≠ '\'' ∧ c ≠ '\\' ∧ 32 ≤ c.toNat ∧ c.toNat < 127) →
        l.flatMap (reprChar pr '\'') = l := by
      intro l
      induction l with
      | nil => intro _; rfl
      | cons c l ih =>
        intro hl
        obtain ⟨h1, h2, h3, h4⟩ := hl c List.mem_cons_self
        have hc : reprChar pr '\'' c = [c] := by
          unfold reprChar
          rw [if_neg (by rintro (e | e) <;> contradiction), if_neg, if_neg, if_neg, if_neg (by omega),
            if_pos h4]
          all_goals (rintro rfl; exact absurd h3 (by decide))
        rw [List.flatMap_cons, hc, ih fun d hd => hl d (List.mem_cons_of_mem _ hd)]
        rfl
    exact this _ h
  unfold strRepr
  simp only [hq, hf]

/-- The text of the list of statuses. -/
theorem strs_statuses (h : TcpHeader) : p.strs h.statuses =
    "[" ++ joinComma (h.statuses.map fun s => String.ofList ('\'' :: (s.toList ++ ['\'']))) ++ "]" := by
  have : ∀ s ∈ h.statuses, p.str s = String.ofList ('\'' :: (s.toList ++ ['\''])) := by
    intro s hs
    have hs' : s ∈ ["request", "response", "error", "compressed", "handshake"] := by
      revert hs
      unfold TcpHeader.statuses
      simp only [List.mem_append]
      rintro (((hs | hs) | hs) | hs) <;> split_ifs at hs <;>
        simp only [List.mem_singleton, List.not_mem_nil] at hs <;> rw [hs] <;> decide
    apply strRepr_ascii
    have : ∀ s ∈ ["request", "response", "error", "compressed", "handshake"], ∀ c ∈ s.toList,
      c ≠ '\'' ∧ c ≠ '\\' ∧ 32 ≤ c.toNat ∧ c.toNat < 127 := by decide +kernel
    exact this s hs'
  unfold Shown.strs listRepr
  rw [List.map_congr_left this]

/-- The text of a list of flags, as characters. -/
def flagText (f : Flags) : List Char :=
  (joinComma (f.names.map fun s => String.ofList ('\'' :: (s.toList ++ ['\''])))).toList

theorem flagText_facts : ∀ f g : Flags, ']' ∉ flagText f ∧ (flagText f = flagText g → f = g) := by
  have : ∀ a b c d a' b' c' d' : Bool, ']' ∉ flagText ⟨a, b, c, d⟩ ∧
    (flagText ⟨a, b, c, d⟩ = flagText ⟨a', b', c', d'⟩ → (⟨a, b, c, d⟩ : Flags) = ⟨a', b', c', d'⟩) := by
    decide +kernel
  exact fun f g => this _ _ _ _ _ _ _ _


theorem version_no {v : Version} {c : Char} (hc : c.isDigit = false) (hm : c ≠ '-') (hp : c ≠ '.') :
    c ∉ (p.version v).toList := by
  have hdot : c ∉ ".".toList := by
    intro h
    exact hp (List.mem_singleton.1 h)
  rw [version_str]
  simp only [String.toList_append, List.mem_append, not_or]
  exact ⟨⟨⟨⟨⟨⟨int_no _ hc hm, hdot⟩, int_no _ hc hm⟩, hdot⟩, int_no _ hc hm⟩, hdot⟩, int_no _ hc hm⟩

/-- The text of a header, cut at its punctuation. -/
theorem header_text (h : TcpHeader) {v : Version} (hv : h.version = .obj v) : (h.str p).toList =
    ("prefix=" ++ bytesRepr h.marker ++ ", version=").toList ++ ((p.version v).toList ++
      (',' :: (" type=[".toList ++ (flagText h.flags ++ (']' :: (", message=".toList ++
        ((toString h.size).toList ++ (' ' :: ("byte(s), id=".toList ++
          (toString h.request_id).toList))))))))) := by
  unfold TcpHeader.str
  rw [hv, strs_statuses, (C20_statuses h).2]
  simp only [String.toList_append, List.append_assoc, VerField.str, flagText]
  rfl

/-- C99: the text of a received header identifies the message: two headers (with the same prefix) with
the same text have the same request id, the same size, the same kind and flags, and versions with the
same text. -/
theorem C99_header {h h' : TcpHeader} {v v' : Version} (hm : h.marker = h'.marker)
    (hv : h.version = .obj v) (hv' : h'.version = .obj v') (e : h.str p = h'.str p) :
    h.request_id = h'.request_id ∧ h.size = h'.size ∧ h.flags = h'.flags ∧
      v.str p.fd = v'.str p.fd := by
  have e1 := congrArg String.toList e
  rw [header_text p h hv, header_text p h' hv', hm] at e1
  have e2 := List.append_cancel_left e1
  obtain ⟨a1, a2⟩ := sep_cancel (version_no p (by decide) (by decide) (by decide))
    (version_no p (by decide) (by decide) (by decide)) e2
  have e3 := List.append_cancel_left a2
  obtain ⟨b1, b2⟩ := sep_cancel (flagText_facts h.flags h'.flags).1 (flagText_facts h'.flags h.flags).1 e3
  have e4 := List.append_cancel_left b2
  obtain ⟨c1, c2⟩ := sep_cancel (int_no _ (by decide) (by decide)) (int_no _ (by decide) (by decide)) e4
  have e5 := List.append_cancel_left c2
  exact ⟨int_text_inj (String.toList_inj.1 e5), int_text_inj (String.toList_inj.1 c1),
    (flagText_facts _ _).2 b1, String.toList_inj.1 a1⟩

theorem parsed_version {raw body : Bytes} {req : OutboundRequest} (h : IsRequest raw req body) :
    ∃ v, req.tcp_header.version = .obj v := by
  obtain ⟨bl, hd, rest, h1, h2, h3⟩ := (parsesAsRequest_iff 0).1 h.1
  rw [(request_readFrom_ok h3).1]
  revert h2
  unfold TcpHeader.readFrom
  simp only [Reader.bind_eq_ok, Reader.pure_def]
  rintro ⟨_, _, _, _, _, _, _, _, _, _, _, _, _, _, _, _, _, _, h⟩
  cases h
  exact ⟨_, rfl⟩

theorem request_text {m : OutboundRequest} {x : List Char} : (m.str p none).toList ++ x =
    (m.tcp_header.str p).toList ++ (", ctx=req=".toList ++ ((p.dict m.ctx.request_headers).toList ++
      (", res=".toList ++ ((p.setDict m.ctx.response_headers).toList ++
        (", None, features=".toList ++ ((p.strs m.features).toList ++ (", action=".toList ++
          (m.action.toList ++ x)))))))) := by
  unfold OutboundRequest.str OutboundMessage.str ThreadContext.str
  simp only [String.toList_append, List.append_assoc, Option.getD_none]
  rfl

/-- C99: what the host logs when a request arrives tells everything about its envelope: if two requests
(with the prefix `ES`) leave the same records, they have the same request id, size, flags, thread
context, features and action. -/
theorem C99_records {raw raw' body body' : Bytes} {req req' : OutboundRequest}
    (h : IsRequest raw req body) (h' : IsRequest raw' req' body')
    (hm : req.tcp_header.marker = TcpHeader.ES) (hm' : req'.tcp_header.marker = TcpHeader.ES)
    (e : receivedRecords p raw = receivedRecords p raw') :
    req.tcp_header.request_id = req'.tcp_header.request_id ∧ req.tcp_header.size = req'.tcp_header.size ∧
      req.tcp_header.flags = req'.tcp_header.flags ∧ SameContext req.ctx req'.ctx ∧
      req.features = req'.features ∧ req.action = req'.action := by
  rw [records_request p h, records_request p h'] at e
  obtain ⟨e1, e2⟩ := List.cons.inj e
  have e2 := (List.cons.inj e2).1
  have cancel : ∀ {a b : String}, "< " ++ a = "< " ++ b → a.toList = b.toList := by
    intro a b h
    have := congrArg String.toList h
    rw [String.toList_append, String.toList_append] at this
    exact List.append_cancel_left this
  have e1 := cancel e1
  have e2 := cancel e2
  obtain ⟨v, hv⟩ := parsed_version h
  obtain ⟨v', hv'⟩ := parsed_version h'
  obtain ⟨a1, a2, a3, _⟩ := C99_header p (hm.trans hm'.symm) hv hv' (String.toList_inj.1 e1)
  have e3 : (req.str p none).toList ++ [] = (req'.str p none).toList ++ [] := by rw [e2]
  rw [request_text, request_text, e1] at e3
  have e4 := List.append_cancel_left (List.append_cancel_left e3)
  obtain ⟨b1, e5⟩ := dict_delimited p _ _ _ _ e4
  obtain ⟨b2, e6⟩ := setDict_delimited p (List.append_cancel_left e5)
  obtain ⟨b3, e7⟩ := strs_delimited p _ _ _ _ (List.append_cancel_left e6)
  have e8 := List.append_cancel_left e7
  rw [List.append_nil, List.append_nil] at e8
  refine ⟨a1, a2, a3, ⟨b1, ?_⟩, b3, String.toList_inj.1 e8⟩
  have key : ∀ (l m : Dict String (List String)),
      l.map (fun kv => (kv.1, p.ho.order kv.2)) = m.map (fun kv => (kv.1, p.ho.order kv.2)) →
      List.Forall₂ (fun a b : String × List String => a.1 = b.1 ∧ a.2.Perm b.2) l m := by
    intro l
    induction l with
    | nil =>
      intro m hm
      cases m with
      | nil => exact .nil
      | cons b m => cases hm
    | cons a l ih =>
      intro m hm
      cases m with
      | nil => cases hm
      | cons b m =>
        obtain ⟨c1, c2⟩ := List.cons.inj hm
        obtain ⟨c3, c4⟩ := Prod.mk.inj c1
        exact .cons ⟨c3, (p.ho.perm a.2).symm.trans (c4 ▸ p.ho.perm b.2)⟩ (ih m c2)
  exact key _ _ b2

/-- C99: release numbers (below 10^8) with the same text are the same. -/
theorem C99_version {m n : Nat} (hm : m < 10 ^ 8) (hn : n < 10 ^ 8)
    (e : (Version.new m).str p.fd = (Version.new n).str p.fd) : m = n := by
  rw [C17_string p.fd m (by omega), C17_string p.fd n (by omega)] at e
  have e1 := congrArg String.toList e
  have hd : ∀ k : Nat, '.' ∉ (toString k).toList := fun k => int_no (k : Int) (by decide) (by decide)
  have ht : toString "." = "." := rfl
  have hl : ".".toList = ['.'] := rfl
  simp only [String.toList_append, List.append_assoc, ht, hl, List.cons_append, List.nil_append] at e1
  obtain ⟨a1, e2⟩ := sep_cancel (hd _) (hd _) e1
  obtain ⟨a2, e3⟩ := sep_cancel (hd _) (hd _) e2
  obtain ⟨a3, e4⟩ := sep_cancel (hd _) (hd _) e3
  have b1 := nat_text_inj (String.toList_inj.1 a1)
  have b2 := nat_text_inj (String.toList_inj.1 a2)
  have b3 := nat_text_inj (String.toList_inj.1 a3)
  have b4 := nat_text_inj (String.toList_inj.1 e4)
  omega

/-! ## C97 -/

/-- C97 is false of every REST request: requests that differ in headers, media type, content and token
have the same text; no text of a request tells any of these. -/
theorem C97_violated (r : ExtensionRestRequest) (hs : Dict String (List String))
    (mt : String) (content : Bytes) (tok : String) :
    ({ r with headers := hs, media_type := mt, content_ := content, principal_identifier_token := tok } :
      ExtensionRestRequest).str p = r.str p := rfl

/-- C97 is false of uri and path, too: the text does not tell where the one ends and the other begins. -/
theorem C97_path_violated (r : ExtensionRestRequest) (a b c : String) :
    ({ r with uri := a ++ ", path=" ++ b, path := c } : ExtensionRestRequest).str p =
    ({ r with uri := a, path := b ++ ", path=" ++ c } : ExtensionRestRequest).str p := by
  unfold ExtensionRestRequest.str
  simp only [String.append_assoc]

theorem enum_text {k : String} {a b : Option String} {x y : List Char} (ha : ∀ s, a = some s → ',' ∉ s.toList)
    (hb : ∀ s, b = some s → ',' ∉ s.toList) (hk : ',' ∉ k.toList) (hn : k.toList.head? ≠ some 'N')
    (hne : k.toList ≠ [])
    (h : (enumStr k a).toList ++ ',' :: x = (enumStr k b).toList ++ ',' :: y) : a = b ∧ x = y := by
  have hc : ∀ o : Option String, (∀ s, o = some s → ',' ∉ s.toList) → ',' ∉ (enumStr k o).toList := by
    intro o ho
    cases o with
    | none => exact (by decide : ',' ∉ "None".toList)
    | some s =>
      simp only [enumStr, String.toList_append, List.mem_append, not_or]
      exact ⟨⟨hk, by decide⟩, ho s rfl⟩
  obtain ⟨h1, h2⟩ := sep_cancel (hc a ha) (hc b hb) h
  refine ⟨?_, h2⟩
  obtain ⟨c, r, hr⟩ : ∃ c r, k.toList = c :: r := by
    cases hl : k.toList with
    | nil => exact absurd hl hne
    | cons c r => exact ⟨c, r, rfl⟩
  have hcn : c ≠ 'N' := by
    intro e
    exact hn (by rw [hr, e]; rfl)
  cases a with
  | none =>
    cases b with
    | none => rfl
    | some s =>
      simp only [enumStr, String.toList_append, hr] at h1
      exact absurd (List.cons.inj h1).1.symm hcn
  | some s =>
    cases b with
    | none =>
      simp only [enumStr, String.toList_append, hr] at h1
      exact absurd (List.cons.inj h1).1 hcn
    | some t =>
      simp only [enumStr, String.toList_append, List.append_assoc] at h1
      exact congrArg some (String.toList_inj.1 (List.append_cancel_left (List.append_cancel_left h1)))

/-- C97, as far as it holds: requests with the same text have the same HTTP version and method; and, if
their URIs and paths are free of commas, the same URI, path and parameters.  Missing: everything else,
for which it is false (`C97_violated`). -/
theorem C97_shown_partial {r r' : ExtensionRestRequest} (h : r.str p = r'.str p) :
    r.http_version = r'.http_version ∧ r.method = r'.method ∧
    ((∀ s ∈ [r.uri, r.path, r'.uri, r'.path], ',' ∉ s.toList) →
      r.uri = r'.uri ∧ r.path = r'.path ∧ r.params = r'.params) := by
  have h0 : ∀ r : ExtensionRestRequest, (r.str p).toList = "http version=".toList ++
      ((enumStr "HttpVersion" (r.http_version.map HttpVersion.name)).toList ++ ',' :: (" method=".toList ++
      ((enumStr "RestMethod" (r.method.map RestMethod.name)).toList ++ ',' :: (" uri=".toList ++
      (r.uri.toList ++ ',' :: (" path=".toList ++ (r.path.toList ++ ',' :: (" params=".toList ++
      ((p.dict r.params).toList ++ (", ".toList ++
      "headers={self.headers}, media type={self.media_type}, content={len(self.content)} byte(s), pit={self.principal_identifier_token}".toList)))))))))) := by
    intro r
    unfold ExtensionRestRequest.str
    simp only [String.toList_append, List.append_assoc]
    rfl
  have hv : ∀ v w : HttpVersion, ',' ∉ v.name.toList ∧ (v.name = w.name → v = w) := by
    intro v w; cases v <;> cases w <;> decide
  have hm : ∀ v w : RestMethod, ',' ∉ v.name.toList ∧ (v.name = w.name → v = w) := by
    intro v w; cases v <;> cases w <;> decide +kernel
  have e1 := congrArg String.toList h
  rw [h0, h0] at e1
  have e2 := List.append_cancel_left e1
  obtain ⟨a1, e3⟩ := enum_text (by
      intro s hs; obtain ⟨v, _, rfl⟩ := Option.map_eq_some_iff.1 hs; exact (hv v v).1)
    (by intro s hs; obtain ⟨v, _, rfl⟩ := Option.map_eq_some_iff.1 hs; exact (hv v v).1)
    (by decide) (by decide) (by decide) e2
  obtain ⟨a2, e4⟩ := enum_text (by
      intro s hs; obtain ⟨v, _, rfl⟩ := Option.map_eq_some_iff.1 hs; exact (hm v v).1)
    (by intro s hs; obtain ⟨v, _, rfl⟩ := Option.map_eq_some_iff.1 hs; exact (hm v v).1)
    (by decide) (by decide) (by decide) (List.append_cancel_left e3)
  refine ⟨?_, ?_, ?_⟩
  · cases x : r.http_version <;> cases y : r'.http_version <;> rw [x, y] at a1 <;>
      simp only [Option.map_none, Option.map_some, reduceCtorEq, Option.some.injEq] at a1 ⊢
    exact (hv _ _).2 a1
  · cases x : r.method <;> cases y : r'.method <;> rw [x, y] at a2 <;>
      simp only [Option.map_none, Option.map_some, reduceCtorEq, Option.some.injEq] at a2 ⊢
    exact (hm _ _).2 a2
  · intro hc
    obtain ⟨b1, e5⟩ := sep_cancel (hc _ (by simp)) (hc _ (by simp)) (List.append_cancel_left e4)
    obtain ⟨b2, e6⟩ := sep_cancel (hc _ (by simp)) (hc _ (by simp)) (List.append_cancel_left e5)
    obtain ⟨b3, _⟩ := dict_delimited p _ _ _ _ (List.append_cancel_left e6)
    exact ⟨String.toList_inj.1 b1, String.toList_inj.1 b2, b3⟩

example (p : Shown) := C97_shown_partial p (r := { path := "/a", uri := "/a?b" }) (r' := { path := "/a", uri := "/a?b", media_type := "x" }) rfl

/-- C99: the text of a header, as the unit tests of the SDK expect it. -/
example (p : Shown) : (TcpHeader.new (.obj (Version.new 3000099)) 0 (some 42) 0).1.str p =
    "prefix=b'ES', version=3.0.0.99, type=['request'], message=17 byte(s), id=42" := by
  unfold TcpHeader.str
  rw [strs_statuses]
  change _ ++ (Version.new 3000099).str p.fd ++ _ ++ _ ++ _ ++ _ ++ _ ++ _ = _
  rw [show (Version.new 3000099).str p.fd = "3.0.0.99" from
    (C17_string p.fd 3000099 (by decide)).trans (by decide +kernel)]
  decide +kernel

/-- C99: two requests of the same kind, with different ids, and what they leave in the log. -/
example (p : Shown) : receivedRecords p (sampleFrame (W.emit [1, 2]) "custom" 8) ≠
    receivedRecords p (sampleFrame (W.emit [1, 2]) "custom" 9) := by
  have h : ∀ id, id = 8 ∨ id = 9 → RequestFrame (sampleFrame (W.emit [1, 2]) "custom" id) sampleCtx
      ["f"] (W.emit [1, 2]) "custom" id false false := by
    rintro id (rfl | rfl) <;>
    exact ⟨sampleOrder, Version.new 2070099, 0, 0, _, rfl, rfl, by decide +kernel, by decide +kernel,
      by decide +kernel, by decide +kernel, by decide +kernel, by decide +kernel⟩
  obtain ⟨_, _, r, q1, _, q3, _⟩ := frame_parses (h 8 (.inl rfl)) []
  obtain ⟨_, _, r', q1', _, q3', _⟩ := frame_parses (h 9 (.inr rfl)) []
  rw [List.append_nil] at q1 q1'
  have hm : ∀ id, id = 8 ∨ id = 9 → ∀ r b, IsRequest (sampleFrame (W.emit [1, 2]) "custom" id) r b →
      r.tcp_header.marker = TcpHeader.ES := by
    intro id hid r b hr
    obtain ⟨bl, hd, rest, h1, h2, h3⟩ := (parsesAsRequest_iff 0).1 hr.1
    rw [(request_readFrom_ok h3).1]
    have : ((TcpHeader.readFrom (sampleFrame (W.emit [1, 2]) "custom" id)).toOption.map
        fun x => x.1.marker) = some TcpHeader.ES := by
      rcases hid with rfl | rfl <;> decide +kernel
    rw [h2] at this
    exact Option.some.inj this
  intro e
  have := (C99_records p q1 q1' (hm 8 (.inl rfl) _ _ q1) (hm 9 (.inr rfl) _ _ q1') e).1
  rw [q3, q3'] at this
  exact absurd this (by decide)

/-- A request with headers, a content and a token. -/
def tellingRequest : ExtensionRestRequest where
  method := some .GET
  uri := "/hello?v"
  path := "/hello"
  headers := [("foo", ["bar", "baz"])]
  content_ := [1, 2, 3]
  principal_identifier_token := "tok"
  http_version := some .HTTP_1_1

/-- C97: what is printed for it. -/
example (p : Shown) : tellingRequest.str p =
    "http version=HttpVersion.HTTP_1_1, method=RestMethod.GET, uri=/hello?v, path=/hello, params={}, headers={self.headers}, media type={self.media_type}, content={len(self.content)} byte(s), pit={self.principal_identifier_token}" := by
  have hd : p.dict tellingRequest.params = "{}" := rfl
  unfold ExtensionRestRequest.str
  rewrite [hd]
  decide +kernel

example := fun p : Shown => C99_version p (m := 3000099) (n := 3000099) (by decide) (by decide) rfl

example := fun p : Shown => C99_header p (h := ⟨[69, 83], 7, 1, .obj (Version.new 3000099), 17, 5⟩)
  (h' := ⟨[69, 83], 7, 1, .obj (Version.new 3000099), 17, 6⟩) rfl rfl rfl rfl

end Verif
