import Verif.Spec.RunLog
import Verif.Props.Log
import Verif.Props.Told
import Verif.Props.Server
import Mathlib.Data.List.Basic
/-!
# The log of a whole run (C127)
-/

namespace Verif
open Py

variable {σ H : Type} (p : Shown) (t : SocketTexts)

/-! ### The debugging records of one input are none of the three kinds -/

/-- A text that is no record of bytes read or sent, or of a connection. -/
def OrdinaryText (s : String) : Prop :=
  (∃ c l, s.toList = '<' :: ' ' :: c :: l ∧ c ≠ '#' ∧ c ≠ 'c') ∨ ∃ b, s = "> #" ++ bytesRepr b

/-- A log none of whose debugging records is of the three kinds. -/
def OrdinaryLog (l : List LogRecord) : Prop := ∀ r ∈ l, r.level = .debug → OrdinaryText r.text

theorem ordinary_nil : OrdinaryLog [] := by intro r hr; cases hr

theorem OrdinaryLog.debug {s : String} {l : List LogRecord} (hs : OrdinaryText s) (h : OrdinaryLog l) :
    OrdinaryLog (⟨.debug, s⟩ :: l) := by
  intro r hr hd
  rcases List.mem_cons.1 hr with rfl | hr
  · exact hs
  · exact h r hr hd

theorem OrdinaryLog.info {s : String} {l : List LogRecord} (h : OrdinaryLog l) : OrdinaryLog (⟨.info, s⟩ :: l) := by
  intro r hr hd
  rcases List.mem_cons.1 hr with rfl | hr
  · cases hd
  · exact h r hr hd

theorem OrdinaryLog.append {l m : List LogRecord} (h : OrdinaryLog l) (h' : OrdinaryLog m) : OrdinaryLog (l ++ m) := by
  intro r hr hd
  rcases List.mem_append.1 hr with hr | hr
  · exact h r hr hd
  · exact h' r hr hd

theorem ordinary_warning (s : String) : OrdinaryLog [⟨.warning, s⟩] := by
  intro r hr hd
  rw [List.mem_singleton.1 hr] at hd
  cases hd

theorem ordinary_text {a b : String} {c : Char} {l : List Char} (ha : a.toList = c :: l) (h1 : c ≠ '#') (h2 : c ≠ 'c') :
    OrdinaryText ("< " ++ (a ++ b)) := by
  left
  refine ⟨c, l ++ b.toList, ?_, h1, h2⟩
  rw [String.toList_append, String.toList_append, ha]
  rfl

theorem sendLog_ordinary (text : String) (w : W) : OrdinaryLog (sendLog text w) := by
  unfold sendLog
  cases w.err with
  | some e => exact ordinary_nil
  | none => exact OrdinaryLog.info (OrdinaryLog.debug (.inr ⟨_, rfl⟩) ordinary_nil)

theorem replyLog_ordinary (ch : Choice) (s : Host σ) (r : OutboundRequest) (m : W) (text : String) :
    OrdinaryLog (replyLog p ch s r m text) := by
  unfold replyLog
  cases (replyTo r m s.ids).1 with
  | error e => exact ordinary_nil
  | ok q => exact sendLog_ordinary _ _

theorem ordinary_header (h : TcpHeader) : OrdinaryText ("< " ++ h.str p) := by
  unfold TcpHeader.str
  simp only [String.append_assoc]
  exact ordinary_text (a := "prefix=") rfl (by decide) (by decide)

theorem ordinary_init (m : InitializeExtensionRequest) : OrdinaryText (initRecord p m) := by
  unfold initRecord InitializeExtensionRequest.str DiscoveryNode.str
  simp only [String.append_assoc]
  exact ordinary_text (a := "id=") rfl (by decide) (by decide)

theorem ordinary_rest (r : ExtensionRestRequest) : OrdinaryText (restRecord p r) := by
  unfold restRecord ExtensionRestRequest.str
  simp only [String.append_assoc]
  exact ordinary_text (a := "http version=") rfl (by decide) (by decide)

theorem ordinary_handshake (m : HandshakerRequest) : OrdinaryText ("< " ++ m.str p) := by
  unfold HandshakerRequest.str
  exact ordinary_text (a := "version=") rfl (by decide) (by decide)

theorem ordinary_task (m : TaskId) : OrdinaryText ("< " ++ m.str) := by
  unfold TaskId.str
  simp only [String.append_assoc]
  exact ordinary_text (a := "node=") rfl (by decide) (by decide)

theorem ordinary_ack (m : AcknowledgedResponse) : OrdinaryText ("< " ++ m.str) := by
  unfold AcknowledgedResponse.str
  exact ordinary_text (a := "status=") rfl (by decide) (by decide)

theorem ordinary_object (k : String) (i : Nat) : OrdinaryText ("< " ++ p.object k i) := by
  unfold Shown.object
  simp only [String.append_assoc]
  exact ordinary_text (a := "<") rfl (by decide) (by decide)

theorem requestLog_ordinary (env : Ext σ H) (ch : Choice) (s : Host σ) (r : OutboundRequest) (input : Bytes) :
    OrdinaryLog (requestLog p env ch s r input) := by
  unfold requestLog
  split
  · unfold initLog
    cases InitializeExtensionRequest.readFrom input with
    | error e => exact ordinary_nil
    | ok m =>
      refine OrdinaryLog.debug (ordinary_init p _) ?_
      generalize InitializeExtensionResponse.writeTo _ = m1
      generalize (ExtensionTransportRequest.new .REQUEST_EXTENSION_ENVIRONMENT_SETTINGS "").writeTo = m2
      generalize (RegisterRestActionsRequest.new env.name env.registry.named_routes []).writeTo = m3
      rcases replyTo r m1 s.ids with ⟨_ | q, ids⟩
      · exact ordinary_nil
      dsimp only
      rcases OutboundRequest.new (some r.ctx) r.features (some m2)
          minCompat "internal:discovery/enviornmentsettings" none false false ids with ⟨_ | q, ids⟩
      · exact ordinary_nil
      dsimp only
      rcases OutboundRequest.new (some r.ctx) r.features (some m3)
            minCompat "internal:discovery/registerrestactions" none false false ids with ⟨_ | q, ids⟩
      · exact ordinary_nil
      exact sendLog_ordinary _ _
  split
  · unfold restLog
    cases ExtensionRestRequest.readFrom {} input with
    | error e => exact ordinary_nil
    | ok m =>
      obtain ⟨m, _⟩ := m
      refine OrdinaryLog.debug (ordinary_rest p _) ?_
      cases m.method with
      | none => exact ordinary_nil
      | some v =>
        dsimp only
        rcases env.registry.handle env.run (v.name ++ " " ++ m.path) s.ext m with ⟨x, _ | q⟩
        · exact ordinary_nil
        exact replyLog_ordinary p _ _ _ _ _
  split
  · unfold tcpHandshakeLog
    cases HandshakerRequest.readFrom input with
    | error e => exact ordinary_nil
    | ok m => exact OrdinaryLog.debug (ordinary_handshake p _) (replyLog_ordinary p _ _ _ _ _)
  split
  · unfold transportHandshakeLog
    cases ServiceHandshakeRequest.readFrom input with
    | error e => exact ordinary_nil
    | ok m => exact OrdinaryLog.debug (ordinary_task _) (replyLog_ordinary p _ _ _ _ _)
  · exact replyLog_ordinary p _ _ _ _ _

theorem responseLog_ordinary (env : Ext σ H) (ch : Choice) (s : Host σ) (r : OutboundResponse) (input : Bytes) :
    OrdinaryLog (responseLog p env ch s r input) := by
  unfold responseLog
  rcases s.pending.get? r.tcp_header.request_id with _ | _ | _
  · exact ordinary_nil
  · unfold registeredLog
    dsimp only
    cases AcknowledgedResponse.readFrom input with
    | error e => exact ordinary_nil
    | ok m =>
      refine OrdinaryLog.debug (ordinary_ack _) ?_
      cases m.1.status with
      | false => exact ordinary_nil
      | true => exact sendLog_ordinary _ _
  · unfold settingsLog
    dsimp only
    rcases Settings.readFrom env.depth s.settings input with ⟨d, _ | q⟩
    · exact ordinary_nil
    refine OrdinaryLog.debug (ordinary_object p _ _) ?_
    cases s.init with
    | none => exact ordinary_nil
    | some r => exact sendLog_ordinary _ _

theorem inputLog_ordinary (env : Ext σ H) (ch : Choice) (s : Host σ) (raw : Bytes) : OrdinaryLog (inputLog p env ch s raw) := by
  unfold inputLog
  dsimp only
  cases TcpHeader.readFrom raw with
  | error e => exact ordinary_nil
  | ok q =>
    obtain ⟨header, input⟩ := q
    dsimp only
    refine OrdinaryLog.debug (ordinary_header p _) ?_
    generalize (TcpHeader.new (.int Version.CURRENT) 0 none s.ids).2 = n
    split
    · rcases OutboundRequest.new none [] none .none "" none false false n with ⟨_ | blank, ids⟩
      · exact ordinary_nil
      dsimp only
      cases blank.readFrom (some header) input with
      | error e => exact ordinary_nil
      | ok q => exact OrdinaryLog.info (requestLog_ordinary p _ _ _ _ _)
    · rcases OutboundResponse.new none [] none .none none false false n with ⟨_ | blank, ids⟩
      · exact ordinary_nil
      dsimp only
      cases blank.readFrom (some header) input with
      | error e => exact ordinary_nil
      | ok q =>
        dsimp only
        split
        · exact ordinary_warning _
        · refine OrdinaryLog.info (OrdinaryLog.append (responseLog_ordinary p _ _ _ _ _) ?_)
          split
          · exact ordinary_warning _
          · exact ordinary_nil

/-! ### Records of one kind -/

theorem recordsOf_append {α : Type} (kind : α → LogRecord) (l m : List LogRecord) :
    recordsOf kind (l ++ m) = recordsOf kind l ++ recordsOf kind m := List.filter_append ..

theorem recordsOf_none {α : Type} {kind : α → LogRecord} {l : List LogRecord} (h : ∀ r ∈ l, ∀ x, r ≠ kind x) :
    recordsOf kind l = [] := by
  unfold recordsOf
  rw [List.filter_eq_nil_iff]
  intro r hr hx
  simp only [decide_eq_true_eq] at hx
  obtain ⟨x, e⟩ := hx
  exact h r hr x e

theorem recordsOf_one {α : Type} (kind : α → LogRecord) (x : α) : recordsOf kind [kind x] = [kind x] := by
  unfold recordsOf
  rw [List.filter_cons_of_pos (by simp only [decide_eq_true_eq]; exact ⟨x, rfl⟩)]
  rfl

theorem recordsOf_sublist {α : Type} (kind : α → LogRecord) (l : List LogRecord) : (recordsOf kind l).Sublist l :=
  List.filter_sublist

theorem readShown_list (d : Bytes) : ∃ l, (readShown d).text.toList = '<' :: ' ' :: '#' :: l := by
  unfold readShown
  simp only [String.append_assoc]
  exact ⟨_, by rw [String.toList_append]; rfl⟩

theorem acceptShown_list (s : String) : ∃ l, (acceptShown s).text.toList = '<' :: ' ' :: 'c' :: l := by
  unfold acceptShown
  exact ⟨_, by rw [String.toList_append]; rfl⟩

theorem sentShown_list (d : Bytes) : ∃ l, (sentShown d).text.toList = '>' :: l := by
  unfold sentShown
  simp only [String.append_assoc]
  exact ⟨_, by rw [String.toList_append]; rfl⟩

theorem sentShown_ne (d b : Bytes) : (sentShown d).text ≠ "> #" ++ bytesRepr b := by
  intro h
  have e := congrArg String.toList h
  unfold sentShown at e
  dsimp only at e
  simp only [String.toList_append, List.append_assoc] at e
  have e1 := List.append_cancel_left e
  unfold bytesRepr at e1
  simp only [String.toList_append, List.append_assoc] at e1
  have e2 := List.append_cancel_left e1
  rw [← List.append_nil (strRepr _ (String.ofList (b.map _))).toList] at e2
  have h1 := (strRepr_delimited (fun _ => false) _ _ _ _ e2).2
  have h2 := congrArg List.length h1
  have h3 : (", size=" : String).toList.length = 7 := rfl
  rw [List.length_append, h3, List.length_nil] at h2
  omega

theorem ordinary_not_read {s : String} (h : OrdinaryText s) (d : Bytes) : s ≠ (readShown d).text := by
  rintro rfl
  obtain ⟨l, hl⟩ := readShown_list d
  rcases h with ⟨c, l', h1, h2, -⟩ | ⟨b, hb⟩
  · rw [hl] at h1
    injection h1 with _ h1
    injection h1 with _ h1
    injection h1 with h1 _
    exact h2 h1.symm
  · rw [hb, String.toList_append] at hl
    injection hl with hl _
    revert hl; decide

theorem ordinary_not_accept {s : String} (h : OrdinaryText s) (d : String) : s ≠ (acceptShown d).text := by
  rintro rfl
  obtain ⟨l, hl⟩ := acceptShown_list d
  rcases h with ⟨c, l', h1, -, h2⟩ | ⟨b, hb⟩
  · rw [hl] at h1
    injection h1 with _ h1
    injection h1 with _ h1
    injection h1 with h1 _
    exact h2 h1.symm
  · rw [hb, String.toList_append] at hl
    injection hl with hl _
    revert hl; decide

theorem ordinary_not_sent {s : String} (h : OrdinaryText s) (d : Bytes) : s ≠ (sentShown d).text := by
  rintro rfl
  obtain ⟨l, hl⟩ := sentShown_list d
  rcases h with ⟨c, l', h1, -, -⟩ | ⟨b, hb⟩
  · rw [hl] at h1
    injection h1 with h1 _
    revert h1; decide
  · exact sentShown_ne d b hb

theorem ordinary_none {α : Type} {kind : α → LogRecord} (hl : ∀ x, (kind x).level = .debug)
    (hk : ∀ s, OrdinaryText s → ∀ x, s ≠ (kind x).text) {l : List LogRecord} (h : OrdinaryLog l) : recordsOf kind l = [] := by
  refine recordsOf_none ?_
  rintro r hr x rfl
  exact hk _ (h _ hr (hl x)) x rfl

theorem level_none {α : Type} {kind : α → LogRecord} (hl : ∀ x, (kind x).level = .debug) {r : LogRecord} (hr : r.level ≠ .debug) :
    recordsOf kind [r] = [] := by
  refine recordsOf_none ?_
  intro r' hr' x e
  rw [List.mem_singleton.1 hr'] at e
  exact hr (by rw [e]; exact hl x)

theorem end_none {α : Type} {kind : α → LogRecord} (hk : ∀ x, (kind x).text ≠ "| terminating") (S : Server σ) :
    recordsOf kind S.endRecords = [] := by
  refine recordsOf_none ?_
  unfold Server.endRecords
  intro r hr x e
  split at hr
  · rw [List.mem_singleton.1 hr] at e
    exact hk x (by rw [← e])
  · cases hr

theorem read_not_end (d : Bytes) : (readShown d).text ≠ "| terminating" := by
  intro h
  obtain ⟨l, hl⟩ := readShown_list d
  rw [h] at hl
  injection hl with hl _
  revert hl; decide

theorem sent_not_end (d : Bytes) : (sentShown d).text ≠ "| terminating" := by
  intro h
  obtain ⟨l, hl⟩ := sentShown_list d
  rw [h] at hl
  injection hl with hl _
  revert hl; decide

theorem accept_not_end (d : String) : (acceptShown d).text ≠ "| terminating" := by
  intro h
  obtain ⟨l, hl⟩ := acceptShown_list d
  rw [h] at hl
  injection hl with hl _
  revert hl; decide

theorem text_none {α β : Type} {kind : α → LogRecord} {kind' : β → LogRecord} (h : ∀ x y, (kind x).text ≠ (kind' y).text) (y : β) :
    recordsOf kind [kind' y] = [] := by
  refine recordsOf_none ?_
  intro r hr x e
  rw [List.mem_singleton.1 hr] at e
  exact h x y (by rw [← e])

theorem read_ne_sent (d d' : Bytes) : (readShown d).text ≠ (sentShown d').text := by
  intro h
  obtain ⟨l, hl⟩ := readShown_list d
  obtain ⟨l', hl'⟩ := sentShown_list d'
  rw [h, hl'] at hl
  injection hl with hl _
  revert hl; decide

theorem read_ne_accept (d : Bytes) (s : String) : (readShown d).text ≠ (acceptShown s).text := by
  intro h
  obtain ⟨l, hl⟩ := readShown_list d
  obtain ⟨l', hl'⟩ := acceptShown_list s
  rw [h, hl'] at hl
  injection hl with _ hl
  injection hl with _ hl
  injection hl with hl _
  revert hl; decide

theorem sent_ne_accept (d : Bytes) (s : String) : (sentShown d).text ≠ (acceptShown s).text := by
  intro h
  obtain ⟨l, hl⟩ := sentShown_list d
  obtain ⟨l', hl'⟩ := acceptShown_list s
  rw [h, hl'] at hl
  injection hl with hl _
  revert hl; decide

/-- The log of one chunk, cut into its kinds. -/
theorem chunkLog_cut (env : Ext σ H) (ch : Choice) (s : Host σ) (raw : Bytes) (failure : String) :
    chunkLog p env ch s raw failure none =
      ⟨.info, readRecord raw⟩ :: readShown raw :: (inputLog p env ch s raw ++
        match (onInput env ch s raw).2 with
        | .error _ => [⟨.warning, "! #" ++ failure⟩]
        | .ok none => []
        | .ok (some out) => [sentShown out]) := by
  unfold chunkLog
  rcases (onInput env ch s raw).2 with _ | _ | _ <;> rfl

theorem cons_split {α : Type} (kind : α → LogRecord) (r : LogRecord) (l : List LogRecord) :
    recordsOf kind (r :: l) = recordsOf kind [r] ++ recordsOf kind l := recordsOf_append kind [r] l

theorem chunkLog_read (env : Ext σ H) (ch : Choice) (s : Host σ) (raw : Bytes) (failure : String) :
    recordsOf readShown (chunkLog p env ch s raw failure none) = [readShown raw] := by
  rw [chunkLog_cut, cons_split, cons_split readShown (readShown raw), recordsOf_one, recordsOf_append,
    ordinary_none (fun _ => rfl) (fun s h x => ordinary_not_read h x) (inputLog_ordinary p env ch s raw),
    level_none (fun _ => rfl) (by simp)]
  rcases (onInput env ch s raw).2 with _ | _ | out
  · rw [level_none (fun _ => rfl) (by simp)]; rfl
  · rfl
  · rw [text_none read_ne_sent]; rfl

theorem chunkLog_sent (env : Ext σ H) (ch : Choice) (s : Host σ) (raw : Bytes) (failure : String) (c : Nat) :
    recordsOf sentShown (chunkLog p env ch s raw failure none) = (answeredBy env s (.recv c ch raw)).map sentShown := by
  rw [chunkLog_cut, cons_split, cons_split sentShown (readShown raw), text_none (fun x y h => read_ne_sent y x h.symm),
    recordsOf_append, ordinary_none (fun _ => rfl) (fun s h x => ordinary_not_sent h x) (inputLog_ordinary p env ch s raw),
    level_none (fun _ => rfl) (by simp)]
  unfold answeredBy
  dsimp only
  rcases (onInput env ch s raw).2 with _ | _ | out
  · rw [level_none (fun _ => rfl) (by simp)]; rfl
  · rfl
  · dsimp only
    rw [recordsOf_one]; rfl

theorem chunkLog_accept (env : Ext σ H) (ch : Choice) (s : Host σ) (raw : Bytes) (failure : String) :
    recordsOf acceptShown (chunkLog p env ch s raw failure none) = [] := by
  rw [chunkLog_cut, cons_split, cons_split acceptShown (readShown raw), text_none (fun x y h => read_ne_accept y x h.symm),
    recordsOf_append, ordinary_none (fun _ => rfl) (fun s h x => ordinary_not_accept h x) (inputLog_ordinary p env ch s raw),
    level_none (fun _ => rfl) (by simp)]
  rcases (onInput env ch s raw).2 with _ | _ | out
  · rw [level_none (fun _ => rfl) (by simp)]; rfl
  · rfl
  · rw [text_none (fun x y h => sent_ne_accept y x h.symm)]; rfl

/-- What the records of one event are, of each kind. -/
theorem records_kinds (env : Ext σ H) (S : Server σ) (e : Event σ) (text : String) :
    recordsOf readShown (S.records p t env e text) = (chunksRead [e]).map readShown ∧
    recordsOf sentShown (S.records p t env e text) = (answeredBy env S.host e).map sentShown ∧
    recordsOf acceptShown (S.records p t env e text) = (accepted [e]).map fun c => acceptShown (t.conn c) := by
  cases e with
  | accept c =>
    refine ⟨?_, ?_, ?_⟩
    · exact text_none read_ne_accept (t.conn c)
    · exact text_none sent_ne_accept (t.conn c)
    · exact recordsOf_one acceptShown (t.conn c)
  | recv c ch raw =>
    have hend : ∀ {α : Type} {kind : α → LogRecord}, (∀ x, (kind x).text ≠ "| terminating") → recordsOf kind
        (S.chunkEnd (onInput env ch S.host raw).2) = [] := by
      intro α kind hk
      rcases (onInput env ch S.host raw).2 with _ | _ | _
      · exact end_none hk S
      · exact end_none hk S
      · rfl
    refine ⟨?_, ?_, ?_⟩
    · show recordsOf readShown (_ ++ _) = _
      rw [recordsOf_append, chunkLog_read, hend read_not_end]; rfl
    · show recordsOf sentShown (_ ++ _) = _
      rw [recordsOf_append, chunkLog_sent p env ch S.host raw text c, hend sent_not_end, List.append_nil]
    · show recordsOf acceptShown (_ ++ _) = _
      rw [recordsOf_append, chunkLog_accept, hend accept_not_end]; rfl
  | sent c n =>
    have hend : ∀ {α : Type} {kind : α → LogRecord}, (∀ x, (kind x).text ≠ "| terminating") →
        recordsOf kind (S.records p t env (.sent c n) text) = [] := by
      intro α kind hk
      show recordsOf kind (match S.conns c with
        | some ⟨.sending rest, _⟩ => if n = rest.length then S.endRecords else []
        | _ => []) = []
      split
      · split
        · exact end_none hk S
        · rfl
      · rfl
    exact ⟨hend read_not_end, hend sent_not_end, hend accept_not_end⟩
  | sendFail c =>
    refine ⟨?_, ?_, ?_⟩
    · show recordsOf readShown (_ :: _) = _
      rw [cons_split, level_none (fun _ => rfl) (by simp), end_none read_not_end]; rfl
    · show recordsOf sentShown (_ :: _) = _
      rw [cons_split, level_none (fun _ => rfl) (by simp), end_none sent_not_end]; rfl
    · show recordsOf acceptShown (_ :: _) = _
      rw [cons_split, level_none (fun _ => rfl) (by simp), end_none accept_not_end]; rfl
  | eof c => exact ⟨rfl, rfl, rfl⟩
  | other n d x => exact ⟨rfl, rfl, rfl⟩
  | stop => exact ⟨rfl, rfl, rfl⟩
  | cancelled => exact ⟨rfl, rfl, rfl⟩
  | acceptFail => exact ⟨rfl, rfl, rfl⟩

theorem chunksRead_cons (e : Event σ) (es : List (Event σ)) : chunksRead (e :: es) = chunksRead [e] ++ chunksRead es := by
  cases e <;> rfl

theorem accepted_cons (e : Event σ) (es : List (Event σ)) : accepted (e :: es) = accepted [e] ++ accepted es := by
  cases e <;> rfl

theorem log_kinds (env : Ext σ H) : ∀ (es : List (Event σ × String)) (S S' : Server σ), S.run env (es.map Prod.fst) = some S' →
    recordsOf readShown (S.log p t env es) = (chunksRead (es.map Prod.fst)).map readShown ∧
    recordsOf sentShown (S.log p t env es) = (answered env S.host (es.map Prod.fst)).map sentShown ∧
    recordsOf acceptShown (S.log p t env es) = (accepted (es.map Prod.fst)).map fun c => acceptShown (t.conn c)
  | [], _, _, _ => ⟨rfl, rfl, rfl⟩
  | (e, text) :: es, S, S', h => by
    obtain ⟨T, h1, h2⟩ := run_cons h
    obtain ⟨a1, a2, a3⟩ := records_kinds p t env S e text
    obtain ⟨b1, b2, b3⟩ := log_kinds env es T S' h2
    have hl : S.log p t env ((e, text) :: es) = S.records p t env e text ++ T.log p t env es := by
      show (match S.step env e with | none => [] | some S' => S.records p t env e text ++ S'.log p t env es) = _
      rw [h1]
    have hm : ((e, text) :: es).map Prod.fst = e :: es.map Prod.fst := rfl
    rw [hm, hl, recordsOf_append, recordsOf_append, recordsOf_append, a1, a2, a3, b1, b2, b3, chunksRead_cons e (es.map Prod.fst),
      accepted_cons e (es.map Prod.fst)]
    refine ⟨by rw [List.map_append], ?_, by rw [List.map_append]⟩
    show _ = (answeredBy env S.host e ++ answered env (hostAfter env S.host [e]) (es.map Prod.fst)).map sentShown
    rw [List.map_append, step_host h1]

theorem server_none {α : Type} {kind : α → LogRecord} (hl : ∀ x, (kind x).level = .debug) (env : Ext σ H) (s : Host σ)
    (es : List (Event σ × String)) :
    recordsOf kind (runLog p t env s es) = recordsOf kind ((Server.start s).log p t env es) := by
  unfold runLog
  rw [cons_split, level_none hl (by simp)]; rfl

/-- C127: the records of what was read are, in order, the chunks that were read: none is missing, and no peer, handler or
exception can add one. -/
theorem C127_read (env : Ext σ H) {s : Host σ} {S : Server σ} {es : List (Event σ × String)}
    (h : (Server.start s).run env (es.map Prod.fst) = some S) :
    recordsOf readShown (runLog p t env s es) = (chunksRead (es.map Prod.fst)).map readShown := by
  rw [server_none p t fun _ => rfl]
  exact (log_kinds p t env es _ _ h).1

/-- C127: the records of what is sent are, in order, the answers to the chunks. -/
theorem C127_sent (env : Ext σ H) {s : Host σ} {S : Server σ} {es : List (Event σ × String)}
    (h : (Server.start s).run env (es.map Prod.fst) = some S) :
    recordsOf sentShown (runLog p t env s es) = (answered env s (es.map Prod.fst)).map sentShown := by
  rw [server_none p t fun _ => rfl]
  exact (log_kinds p t env es _ _ h).2.1

/-- C127: the records of connections are, in order, the connections accepted. -/
theorem C127_accepted (env : Ext σ H) {s : Host σ} {S : Server σ} {es : List (Event σ × String)}
    (h : (Server.start s).run env (es.map Prod.fst) = some S) :
    recordsOf acceptShown (runLog p t env s es) = (accepted (es.map Prod.fst)).map fun c => acceptShown (t.conn c) := by
  rw [server_none p t fun _ => rfl]
  exact (log_kinds p t env es _ _ h).2.2

/-- Records of bytes determine the bytes. -/
theorem sentShown_injective {d d' : Bytes} (h : sentShown d = sentShown d') : d = d' :=
  C111_raw (direction := ">") (congrArg LogRecord.text h)

/-! ### What is on the wire is in the log -/

/-- The connection has got pieces of answers from `outs`, each from its beginning, in order; the answer it is sending now is the
last. -/
def Traced (outs : List Bytes) (S : Server σ) (c : Nat) : Prop :=
  ∃ pieces : List (Bytes × Bytes), (pieces.map Prod.fst).Sublist outs ∧ (∀ x ∈ pieces, x.2 <+: x.1) ∧
    sentOn S c = (pieces.map Prod.snd).flatten ∧
    ∀ rest w, S.conns c = some ⟨.sending rest, w⟩ → ∃ before out taken, pieces = before ++ [(out, taken)] ∧ out = taken ++ rest

theorem sentOn_eq {S : Server σ} {c : Nat} {k : Conn} (h : S.conns c = some k) : sentOn S c = k.wire := by
  unfold sentOn; rw [h]

/-- Nothing more was sent, and the connection is not sending anything it was not sending before. -/
theorem Traced.same {outs outs' : List Bytes} {S S' : Server σ} {c : Nat} (h : Traced outs S c) (ho : outs.Sublist outs')
    (hs : sentOn S' c = sentOn S c)
    (hp : ∀ rest w, S'.conns c = some ⟨.sending rest, w⟩ → S.conns c = some ⟨.sending rest, w⟩) : Traced outs' S' c := by
  obtain ⟨pieces, h1, h2, h3, h4⟩ := h
  exact ⟨pieces, h1.trans ho, h2, hs.trans h3, fun rest w e => h4 rest w (hp rest w e)⟩

theorem Traced.congr {outs outs' : List Bytes} {S S' : Server σ} {c : Nat} (h : Traced outs S c) (ho : outs.Sublist outs')
    (e : S'.conns c = S.conns c) : Traced outs' S' c :=
  h.same ho (by unfold sentOn; rw [e]) fun rest w => by rw [e]; exact id

theorem Traced.closed {outs : List Bytes} {S S' : Server σ} {c : Nat} (h : Traced outs S c)
    (e : S'.conns c = (S.conns c).map fun k => { k with phase := .closed }) : Traced outs S' c := by
  refine h.same (List.Sublist.refl _) ?_ ?_
  · unfold sentOn; rw [e]
    cases S.conns c <;> rfl
  · intro rest w hw
    rw [e] at hw
    cases hc : S.conns c with
    | none => rw [hc] at hw; cases hw
    | some k => rw [hc] at hw; cases hw

/-- The pass over a send is done, all of it having been taken or not. -/
theorem Traced.done {outs : List Bytes} {S S' : Server σ} {c : Nat} {rest w more : Bytes} {b : Bool} (h : Traced outs S c)
    (hc : S.conns c = some ⟨.sending rest, w⟩) (e : S'.conns c = some ⟨if b then .closed else .waiting, w ++ more⟩)
    (hm : more <+: rest) : Traced outs S' c := by
  obtain ⟨pieces, h1, h2, h3, h4⟩ := h
  obtain ⟨before, out, taken, h5, h6⟩ := h4 rest w hc
  refine ⟨before ++ [(out, taken ++ more)], ?_, ?_, ?_, ?_⟩
  · rw [h5] at h1
    simpa using h1
  · intro x hx
    rcases List.mem_append.1 hx with hx | hx
    · exact h2 x (by rw [h5]; exact List.mem_append_left _ hx)
    · rw [List.mem_singleton.1 hx]
      obtain ⟨m', hm⟩ := hm
      exact ⟨m', by rw [h6, ← hm, List.append_assoc]⟩
  · rw [sentOn_eq hc] at h3
    rw [sentOn_eq e]
    dsimp only at h3 ⊢
    rw [h3, h5]
    simp
  · intro rest' w' hw
    rw [e] at hw
    cases b <;> cases hw

theorem step_traced {env : Ext σ H} {S S' : Server σ} {e : Event σ} {c : Nat} {outs : List Bytes}
    (h : S.step env e = some S') (hi : Traced outs S c) : Traced (outs ++ answeredBy env S.host e) S' c := by
  have hsub : outs.Sublist (outs ++ answeredBy env S.host e) := List.sublist_append_left _ _
  cases e with
  | accept d =>
    simp only [answeredBy, List.append_nil] at hsub ⊢
    simp only [Server.step] at h
    split at h
    · next hn =>
      simp only [Option.some.injEq] at h
      have h1 : Traced outs (S.setConn d {}) c := by
        by_cases hd : c = d
        · subst hd
          refine hi.same hsub ?_ ?_
          · unfold sentOn; rw [setConn_same, hn.2]
          · intro rest w hw; rw [setConn_same] at hw; cases hw
        · exact hi.congr hsub (setConn_other _ _ hd)
      subst h
      split
      · exact h1.closed rfl
      · exact h1
    · simp at h
  | recv d ch raw =>
    simp only [Server.step] at h
    split at h
    · next k hk =>
      split at h
      · next hw =>
        simp only [Option.some.injEq] at h
        subst h
        by_cases hd : c = d
        · subst hd
          obtain ⟨ph, w⟩ := k
          have hp := hw.1
          simp only at hp
          subst hp
          have hans : answeredBy env S.host (.recv c ch raw) = match (onInput env ch S.host raw).2 with
            | .ok (some out) => [out]
            | _ => [] := rfl
          unfold Server.handle
          dsimp only
          obtain ⟨pieces, h1, h2, h3, h4⟩ := hi
          rw [sentOn_eq hk] at h3
          rcases hr : (onInput env ch S.host raw).2 with er | _ | out
          · refine ⟨pieces, h1.trans hsub, h2, ?_, ?_⟩
            · rw [sentOn_eq (passDone_same _ _ _)]; exact h3
            · intro rest w' hw'
              dsimp only at hw'
              rw [passDone_same] at hw'
              simp only [Option.some.injEq, Conn.mk.injEq] at hw'
              split at hw' <;> simp at hw'
          · refine ⟨pieces, h1.trans hsub, h2, ?_, ?_⟩
            · rw [sentOn_eq (passDone_same _ _ _)]; exact h3
            · intro rest w' hw'
              dsimp only at hw'
              rw [passDone_same] at hw'
              simp only [Option.some.injEq, Conn.mk.injEq] at hw'
              split at hw' <;> simp at hw'
          · rw [hans, hr]
            refine ⟨pieces ++ [(out, [])], ?_, ?_, ?_, ?_⟩
            · rw [List.map_append]
              exact h1.append (List.Sublist.refl _)
            · intro x hx
              rcases List.mem_append.1 hx with hx | hx
              · exact h2 x hx
              · rw [List.mem_singleton.1 hx]; exact List.nil_prefix
            · rw [sentOn_eq (setConn_same _ _ _)]
              rw [h3]; simp
            · intro rest w' hw'
              dsimp only at hw'
              rw [setConn_same] at hw'
              simp only [Option.some.injEq, Conn.mk.injEq, Phase.sending.injEq] at hw'
              exact ⟨pieces, out, [], rfl, by rw [hw'.1]; rfl⟩
        · exact hi.congr hsub (handle_other _ _ _ _ _ hd)
      · simp at h
    · simp at h
  | sent d n =>
    simp only [answeredBy, List.append_nil] at hsub ⊢
    simp only [Server.step] at h
    split at h
    · next k hk =>
      obtain ⟨ph, w⟩ := k
      split at h
      · next rest hp =>
        simp only at hp
        subst hp
        by_cases hd : c = d
        · subst hd
          split at h
          · simp only [Option.some.injEq] at h; subst h
            obtain ⟨pieces, h1, h2, h3, h4⟩ := hi
            obtain ⟨before, out, taken, h5, h6⟩ := h4 rest w hk
            refine ⟨before ++ [(out, taken ++ rest.take n)], ?_, ?_, ?_, ?_⟩
            · rw [h5] at h1
              simpa using h1
            · intro x hx
              rcases List.mem_append.1 hx with hx | hx
              · exact h2 x (by rw [h5]; exact List.mem_append_left _ hx)
              · rw [List.mem_singleton.1 hx]
                exact ⟨rest.drop n, by rw [h6, List.append_assoc, List.take_append_drop]⟩
            · rw [sentOn_eq hk] at h3
              rw [sentOn_eq (setConn_same _ _ _)]
              dsimp only at h3 ⊢
              rw [h3, h5]
              simp
            · intro rest' w' hw'
              rw [setConn_same] at hw'
              simp only [Option.some.injEq, Conn.mk.injEq, Phase.sending.injEq] at hw'
              exact ⟨before, out, taken ++ rest.take n, rfl, by rw [h6, ← hw'.1, List.append_assoc, List.take_append_drop]⟩
          · split at h
            · simp only [Option.some.injEq] at h; subst h
              exact hi.done hk (passDone_same _ _ _) (List.prefix_refl _)
            · simp at h
        · split at h
          · simp only [Option.some.injEq] at h; subst h
            exact hi.congr hsub (setConn_other _ _ hd)
          · split at h
            · simp only [Option.some.injEq] at h; subst h
              exact hi.congr hsub (passDone_other _ _ hd)
            · simp at h
      · simp at h
    · simp at h
  | sendFail d =>
    simp only [answeredBy, List.append_nil] at hsub ⊢
    simp only [Server.step] at h
    split at h
    · next k hk =>
      obtain ⟨ph, w⟩ := k
      split at h
      · next rest hp =>
        simp only at hp
        subst hp
        simp only [Option.some.injEq] at h; subst h
        by_cases hd : c = d
        · subst hd
          exact hi.done hk (more := []) (by rw [passDone_same, List.append_nil]) List.nil_prefix
        · exact hi.congr hsub (passDone_other _ _ hd)
      · simp at h
    · simp at h
  | eof d =>
    simp only [answeredBy, List.append_nil] at hsub ⊢
    simp only [Server.step] at h
    split at h
    · next k hk =>
      split at h
      · simp only [Option.some.injEq] at h; subst h
        by_cases hd : c = d
        · subst hd
          exact hi.closed (by rw [setConn_same, hk]; rfl)
        · exact hi.congr hsub (setConn_other _ _ hd)
      · simp at h
    · simp at h
  | other n d x =>
    simp only [answeredBy, List.append_nil] at hsub ⊢
    simp only [Server.step] at h
    split at h
    · simp only [Option.some.injEq] at h; subst h; exact hi
    · simp at h
  | stop =>
    simp only [answeredBy, List.append_nil] at hsub ⊢
    simp only [Server.step, Option.some.injEq] at h; subst h; exact hi
  | cancelled =>
    simp only [answeredBy, List.append_nil] at hsub ⊢
    simp only [Server.step] at h
    split at h
    · simp only [Option.some.injEq] at h; subst h; exact hi.closed rfl
    · simp at h
  | acceptFail =>
    simp only [answeredBy, List.append_nil] at hsub ⊢
    simp only [Server.step] at h
    split at h
    · simp only [Option.some.injEq] at h; subst h; exact hi.closed rfl
    · simp at h

theorem run_traced {env : Ext σ H} {S S' : Server σ} {es : List (Event σ)} {c : Nat} {outs : List Bytes}
    (h : S.run env es = some S') (hi : Traced outs S c) : Traced (outs ++ answered env S.host es) S' c := by
  induction es generalizing S outs with
  | nil => simp only [Server.run, Option.some.injEq] at h; subst h; simpa [answered] using hi
  | cons e es ih =>
    obtain ⟨T, h1, h2⟩ := run_cons h
    have := ih h2 (step_traced h1 hi)
    rw [List.append_assoc, step_host h1] at this
    exact this

/-- C127: at every moment of every run, also if sends fail, all that any peer has got is, piece by piece, the beginning of something
that the log already shows as sent, in the same order. -/
theorem C127_wire (env : Ext σ H) {s : Host σ} {S : Server σ} {es : List (Event σ × String)}
    (h : (Server.start s).run env (es.map Prod.fst) = some S) (c : Nat) :
    ∃ pieces : List (Bytes × Bytes), ((pieces.map Prod.fst).map sentShown).Sublist (runLog p t env s es) ∧
      (∀ x ∈ pieces, x.2 <+: x.1) ∧ sentOn S c = (pieces.map Prod.snd).flatten := by
  have h0 : Traced [] (Server.start s) c := ⟨[], List.Sublist.refl _, (by simp), rfl, by intro rest w hw; cases hw⟩
  obtain ⟨pieces, h1, h2, h3, -⟩ := run_traced h h0
  refine ⟨pieces, ?_, h2, h3⟩
  have h4 := h1.map sentShown
  have h5 := C127_sent p t env h
  rw [List.nil_append] at h4
  refine h4.trans ?_
  show (List.map sentShown (answered env s (es.map Prod.fst))).Sublist _
  rw [← h5]
  exact recordsOf_sublist _ _

end Verif
