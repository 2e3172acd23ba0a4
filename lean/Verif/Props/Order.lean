import Verif.Props.Init
import Verif.Props.Pending
import Verif.Spec.Trace
/-!
# C75, C76, C77: the order of the initialisation on the wire, and nothing else is sent
-/

namespace Verif
open Py StreamInput StreamOutput

variable {σ H : Type}

/-! ## C76: everything the host sends -/

/-- The four kinds of output. -/
theorem outputs_cases (env : Ext σ H) (ch : Choice) (s : Host σ) (hI : Inv env s) (raw out : Bytes) (s' : Host σ)
    (h : onInput env ch s raw = (s', .ok (some out))) :
    (∃ req body rbody, IsRequest raw req body ∧ req.action ≠ "internal:discovery/extensions" ∧
        (req.tcp_header.request_id ≠ 0 → Answers out req rbody)) ∨
    (Initialises raw ∧ ∃ q body, IsRequest out q body ∧ q.action = "internal:discovery/registerrestactions" ∧
        s.ids ≤ q.tcp_header.request_id ∧ Outstanding s' q.tcp_header.request_id) ∨
    (∃ id q body, Acknowledges raw id ∧ Outstanding s id ∧ IsRequest out q body ∧
        q.action = "internal:discovery/enviornmentsettings" ∧ 0 ≤ q.tcp_header.request_id ∧
        q.tcp_header.request_id < s.ids) ∨
    (∃ id r body, Responds raw id ∧ Outstanding s id ∧ IsResponse out r body ∧ r.tcp_header.isError = false) := by
  rcases onInput_cases env ch s raw with ⟨req, body, hr⟩ | ⟨resp, body, hr⟩ | ⟨n, e, he⟩
  · rw [onInput_request hr] at h
    by_cases ha : req.action = "internal:discovery/extensions"
    · right; left
      have e : handleRequest env ch { s with ids := s.ids + 2 } req body =
          handleInit env ch { s with ids := s.ids + 2 } req body := by
        unfold handleRequest; rw [if_pos ha]
      rw [e] at h
      refine ⟨⟨req, body, hr, ha⟩, ?_⟩
      cases hb : InitializeExtensionRequest.readFrom body with
      | error e =>
        have : handleInit env ch { s with ids := s.ids + 2 } req body = ({ s with ids := s.ids + 2 }, .error e) := by
          unfold handleInit; rw [hb]
        rw [this] at h; simp at h
      | ok p =>
        obtain ⟨m, rest⟩ := p
        obtain ⟨response, sreq, rreq, i, hi, h1, h2, h3, h4⟩ :=
          handleInit_ok env ch { s with ids := s.ids + 2 } req hb
        rw [h4] at h
        simp only [Prod.mk.injEq] at h
        obtain ⟨rfl, h5⟩ := h
        obtain ⟨q', q1, q2, _, _, q5⟩ := sent_request h3 (parsesAsRequest_ok hr.1).2.2 (parsesAsRequest_features hr.1)
          registerAction_ok h5
        have := idsAfter_ge (some req.tcp_header.request_id) (s.ids + 2)
        have hle : s.ids ≤ i := by simp only at hi; omega
        refine ⟨q', _, q1, q5, by rw [q2]; omega, ?_⟩
        unfold Outstanding
        rw [q2]
        show _ ∈ ((s.pending.set (i : Int) .settings).set ((i + 1 : Nat) : Int) (.registerRest sreq)).map (·.1)
        rw [set_two hI hle]; simp
    · left
      obtain ⟨s1, e1, e2, e3, e4, ⟨e, he⟩ | ⟨w, hw⟩⟩ := handleRequest_sends env ch { s with ids := s.ids + 2 } req body ha
      · rw [he] at h; simp at h
      · rw [hw] at h
        have := (sendReply_sent (parsesAsRequest_ok hr.1).2.2 h).2
        refine ⟨req, body, w.out, hr, ha, fun hid => ?_⟩
        have e : chosenId (some req.tcp_header.request_id) s1.ids = req.tcp_header.request_id := by
          unfold chosenId; simp [hid]
        rw [e] at this
        exact this
  · rw [onInput_response hr] at h
    cases he : resp.tcp_header.isError with
    | true => rw [he] at h; simp at h
    | false =>
      rw [he] at h
      simp only [Bool.false_eq_true, if_false] at h
      unfold handleResponse at h
      cases hg : s.pending.get? resp.tcp_header.request_id with
      | none => simp only [hg] at h; simp at h
      | some p =>
        have hout : Outstanding s resp.tcp_header.request_id := List.mem_map.2 ⟨_, Dict.get?_mem hg, rfl⟩
        simp only [hg] at h
        cases p with
        | registerRest n =>
          right; right; left
          simp only at h
          unfold handleRegistered at h
          cases hb : AcknowledgedResponse.readFrom body with
          | error e => rw [hb] at h; simp at h
          | ok p =>
            obtain ⟨ack, rest⟩ := p
            rw [hb] at h
            simp only at h
            cases hs : ack.status with
            | false => rw [hs] at h; simp at h
            | true =>
              rw [hs] at h
              simp only [if_true, Prod.mk.injEq] at h
              obtain ⟨rfl, h5⟩ := h
              obtain ⟨ctx, f, i, c1, c2, c3, c4⟩ := hI.reg _ n (Dict.get?_mem hg)
              obtain ⟨q', q1, q2, _, _, q5⟩ := sent_request c4 c1 c2 settingsAction_ok h5
              have hrange := hI.range _ hout
              refine ⟨resp.tcp_header.request_id, q', _, ⟨resp, body, rest, hr, he, rfl, ?_⟩, hout, q1, q5, ?_, ?_⟩
              · rw [hb]; cases ack; simp only at hs; rw [hs]
              · rw [q2]; omega
              · rw [q2]; omega
        | settings =>
          right; right; right
          simp only at h
          unfold handleSettings at h
          cases hsr : Settings.readFrom env.depth s.settings body with
          | mk d x =>
            cases x with
            | error e => simp only [hsr] at h; simp at h
            | ok rest =>
              simp only [hsr, Prod.mk.injEq] at h
              cases hi : s.init with
              | none => simp [hi] at h
              | some r =>
                simp only [hi] at h
                obtain ⟨rq, ids, c1, c2⟩ := hI.init r hi
                obtain ⟨w1, w2⟩ := written_ok.1 h.2
                obtain ⟨_, r', hr', herr, _⟩ := response_on_wire ch.ho c2 c1 w1
                have w2' : (r.toOutboundMessage.writeTo ch.ho).out = out := w2
                rw [w2'] at hr'
                exact ⟨_, r', _, ⟨resp, body, hr, he, rfl⟩, hout, hr', herr⟩
  · rw [he] at h; simp at h

/-- C76: whatever the state and the input, if the host sends anything then it is one of

* the answer to the request just received (same flags and context, and same id unless that is 0),
* the registration request, on an initialise-extension request,
* the settings request, on a positive acknowledgement of an outstanding id,
* a response, on a response to an outstanding id.
-/
theorem C76_outputs (env : Ext σ H) (ch : Choice) (s : Host σ) (hs : Reachable env s) (raw out : Bytes) (s' : Host σ)
    (h : onInput env ch s raw = (s', .ok (some out))) :
    (∃ req body i rbody, IsRequest raw req body ∧ req.action ≠ "internal:discovery/extensions" ∧
        ReplyIs out i req.tcp_header.isHandshake req.tcp_header.isCompress req.ctx rbody ∧
        (req.tcp_header.request_id ≠ 0 → i = req.tcp_header.request_id)) ∨
    (Initialises raw ∧ ∃ q body, IsRequest out q body ∧ q.action = "internal:discovery/registerrestactions" ∧
        s.ids ≤ q.tcp_header.request_id ∧ Outstanding s' q.tcp_header.request_id) ∨
    (∃ id q body, Acknowledges raw id ∧ Outstanding s id ∧ IsRequest out q body ∧
        q.action = "internal:discovery/enviornmentsettings" ∧ 0 ≤ q.tcp_header.request_id ∧
        q.tcp_header.request_id < s.ids) ∨
    (∃ id r body, Responds raw id ∧ Outstanding s id ∧ IsResponse out r body ∧ r.tcp_header.isError = false) := by
  rcases outputs_cases env ch s hs.inv raw out s' h with ⟨req, body, _, hr, ha, _⟩ | h'
  · left
    rw [onInput_request hr] at h
    obtain ⟨s1, e1, e2, e3, e4, ⟨e, he⟩ | ⟨w, hw⟩⟩ := handleRequest_sends env ch { s with ids := s.ids + 2 } req body ha
    · rw [he] at h; simp at h
    · rw [hw] at h
      refine ⟨req, body, _, w.out, hr, ha, (sendReply_sent (parsesAsRequest_ok hr.1).2.2 h).2, fun hid => ?_⟩
      unfold chosenId; simp [hid]
  · exact .inr h'

example := C76_outputs sampleExt sampleChoice sampleHost sampleHost_reachable _ _ _ sampleInit_sends

/-! ## The order -/

/-- The ids of the requests sent. -/
def Exchange.SendsId (e : Exchange) (id : Int) : Prop := ∃ a, e.SendsRequest id a

/-- The three steps that must come before, in order. -/
def Prepared (l : List Exchange) (a : Int) : Prop :=
  ∃ p1 e1 p2 e2 p3 b, l = p1 ++ e1 :: (p2 ++ e2 :: p3) ∧ Initialises e1.input ∧
    e1.SendsRequest b "internal:discovery/registerrestactions" ∧ Acknowledges e2.input b ∧
    e2.SendsRequest a "internal:discovery/enviornmentsettings"

/-- The first of them. -/
def Registered (l : List Exchange) (b : Int) : Prop :=
  ∃ p1 e1 p2, l = p1 ++ e1 :: p2 ∧ Initialises e1.input ∧ e1.SendsRequest b "internal:discovery/registerrestactions"

theorem Registered.snoc {l : List Exchange} {b : Int} (h : Registered l b) (e : Exchange) : Registered (l ++ [e]) b := by
  obtain ⟨p1, e1, p2, rfl, h⟩ := h
  exact ⟨p1, e1, p2 ++ [e], by simp, h⟩

theorem Prepared.snoc {l : List Exchange} {b : Int} (h : Prepared l b) (e : Exchange) : Prepared (l ++ [e]) b := by
  obtain ⟨p1, e1, p2, e2, p3, b, rfl, h⟩ := h
  exact ⟨p1, e1, p2, e2, p3 ++ [e], b, by simp, h⟩

/-- What ties the table to what was sent. -/
structure WireInv (env : Ext σ H) (l : List Exchange) (s : Host σ) : Prop where
  inv : Inv env s
  below : ∀ e ∈ l, ∀ k, e.SendsId k → k < s.ids
  reg : ∀ k n, (k, Pending.registerRest n) ∈ s.pending → ∀ e ∈ l, e.SendsId k → Registered l k
  wait : ∀ k n, (k, Pending.registerRest n) ∈ s.pending → ∀ k' n', (k', Pending.registerRest n') ∈ s.pending →
    n.tcp_header.request_id ≠ k'
  set : ∀ k, (k, Pending.settings) ∈ s.pending → ∀ e ∈ l, e.SendsId k → Prepared l k

theorem IsRequest.sendsId {e : Exchange} {out : Bytes} {q : OutboundRequest} {b : Bytes} {k : Int}
    (ho : e.output = .ok (some out)) (hq : IsRequest out q b) (h : e.SendsId k) : k = q.tcp_header.request_id := by
  obtain ⟨a, out', q', b', h1, h2, h3, _⟩ := h
  rw [ho] at h1
  cases h1
  rw [← h3, (hq.unique h2).1]

theorem polite_snoc {l : List Exchange} {e : Exchange} (h : Polite (l ++ [e])) :
    Polite l ∧ ∀ id, Responds e.input id → ∃ e' ∈ l, e'.SendsId id := by
  refine ⟨fun pre e' post hl => h pre e' (post ++ [e]) (by rw [hl]; simp), h l e [] rfl⟩

/-- The table after an input that sends no request. -/
theorem WireInv.silent {env : Ext σ H} {l : List Exchange} {s : Host σ} (h : WireInv env l s) (ch : Choice) (raw : Bytes)
    (hno : ∀ k, ¬ (⟨raw, (onInput env ch s raw).2⟩ : Exchange).SendsId k) :
    WireInv env (l ++ [⟨raw, (onInput env ch s raw).2⟩]) (onInput env ch s raw).1 := by
  have hI := h.inv
  have hids := onInput_ids env ch s raw
  have hmem : ∀ e ∈ l ++ [(⟨raw, (onInput env ch s raw).2⟩ : Exchange)], ∀ k, e.SendsId k → e ∈ l := by
    intro e he k hk
    rw [List.mem_append, List.mem_singleton] at he
    rcases he with he | rfl
    · exact he
    · exact (hno k hk).elim
  have hbelow : ∀ e ∈ l ++ [(⟨raw, (onInput env ch s raw).2⟩ : Exchange)], ∀ k, e.SendsId k → k < s.ids :=
    fun e he k hk => h.below e (hmem e he k hk) k hk
  have hbelow' : ∀ e ∈ l ++ [(⟨raw, (onInput env ch s raw).2⟩ : Exchange)], ∀ k, e.SendsId k →
      k < (onInput env ch s raw).1.ids := fun e he k hk => by have := hbelow e he k hk; omega
  have key : (∀ x, x ∈ (onInput env ch s raw).1.pending → x ∈ s.pending ∨
      (s.ids ≤ x.1 ∧ (∀ n, x.2 = .registerRest n → s.ids ≤ n.tcp_header.request_id ∧ x.1 = n.tcp_header.request_id + 1))) ∧
      (∀ k n k' n', (k, Pending.registerRest n) ∈ (onInput env ch s raw).1.pending → s.ids ≤ k →
        (k', Pending.registerRest n') ∈ (onInput env ch s raw).1.pending → s.ids ≤ k' → k = k') := by
    rcases onInput_effect env ch s raw with ⟨h1, _⟩ | ⟨resp, body, q, he, h1, _⟩ |
      ⟨req, body, q, ha, i, sreq, response, hi, h1, hsr, h2, _⟩
    · rw [h1]
      refine ⟨fun x hx => .inl hx, fun k n k' n' hk hk' => ?_⟩
      have := hI.range k (List.mem_map.2 ⟨_, hk, rfl⟩); omega
    · rw [h1]
      refine ⟨fun x hx => .inl ((Dict.erase_sublist _ _).subset hx), fun k n k' n' hk hk' => ?_⟩
      have := hI.range k (List.mem_map.2 ⟨_, (Dict.erase_sublist _ _).subset hk, rfl⟩); omega
    · have hge := idsAfter_ge (some req.tcp_header.request_id) (s.ids + 2)
      have hid : sreq.tcp_header.request_id = (i : Int) := requestNew_id hsr
      rw [h2, set_two hI (by omega)]
      constructor
      · intro x hx
        rw [List.mem_append] at hx
        rcases hx with hx | hx
        · exact .inl hx
        · right
          simp only [List.mem_cons, List.not_mem_nil, or_false] at hx
          rcases hx with rfl | rfl
          · exact ⟨by simp only; omega, by simp⟩
          · refine ⟨by simp only; omega, fun n hn => ?_⟩
            simp only [Pending.registerRest.injEq] at hn
            subst hn
            rw [hid]; simp only; omega
      · intro k n k' n' hk hk1 hk' hk1'
        rw [List.mem_append] at hk hk'
        have f : ∀ k n, (k, Pending.registerRest n) ∈ s.pending → ¬ (s.ids : Int) ≤ k := fun k n hk => by
          have := hI.range k (List.mem_map.2 ⟨_, hk, rfl⟩); omega
        rcases hk with hk | hk
        · exact (f k n hk hk1).elim
        rcases hk' with hk' | hk'
        · exact (f k' n' hk' hk1').elim
        simp only [List.mem_cons, Prod.mk.injEq, List.not_mem_nil, or_false, reduceCtorEq, and_false, false_or] at hk hk'
        rw [hk.1, hk'.1]
  obtain ⟨key, key2⟩ := key
  have old : ∀ k n, (k, Pending.registerRest n) ∈ s.pending →
      k < s.ids ∧ n.tcp_header.request_id < s.ids ∧ k = n.tcp_header.request_id + 1 := by
    intro k n hk
    have := hI.range k (List.mem_map.2 ⟨_, hk, rfl⟩)
    obtain ⟨_, _, j, _, _, e, hn⟩ := hI.reg k n hk
    have ej : n.tcp_header.request_id = (j : Int) := requestNew_id hn
    rw [ej]; omega
  refine ⟨hI.onInput ch raw, hbelow', ?_, ?_, ?_⟩
  · intro k n hk e he hsend
    rcases key _ hk with hk | ⟨hk, _⟩
    · exact (h.reg k n hk e (hmem e he k hsend) hsend).snoc _
    · have := hbelow e he k hsend
      simp only at hk; omega
  · intro k n hk k' n' hk'
    rcases key _ hk with g | g
    · rcases key _ hk' with g' | g'
      · exact h.wait k n g k' n' g'
      · have := (old k n g).2.1
        have := g'.1
        simp only at this; omega
    · have g1 := g.2 n rfl
      rcases key _ hk' with g' | g'
      · have := (old k' n' g').1
        omega
      · have g1' := g'.2 n' rfl
        have := key2 k n k' n' hk g.1 hk' g'.1
        simp only at g1 g1'
        omega
  · intro k hk e he hsend
    rcases key _ hk with hk | ⟨hk, _⟩
    · exact (h.set k hk e (hmem e he k hsend) hsend).snoc _
    · have := hbelow e he k hsend
      simp only at hk; omega

theorem sends_register {env : Ext σ H} {ch : Choice} {s s' : Host σ} {raw out : Bytes} (hI : Inv env s)
    {q : OutboundRequest} {b : Bytes} (h : onInput env ch s raw = (s', .ok (some out))) (hq : IsRequest out q b)
    (hin : Initialises raw) : q.action = "internal:discovery/registerrestactions" := by
  obtain ⟨rq, bd, g1, g2⟩ := hin
  rcases outputs_cases env ch s hI raw out s' h with ⟨r, bd', _, h1, h2, _⟩ | ⟨_, q', _, h1, h2, _⟩ |
    ⟨_, _, _, ⟨_, _, _, h1, _⟩, _⟩ | ⟨_, _, _, ⟨_, _, h1, _⟩, _⟩
  · obtain ⟨rfl, _⟩ := g1.unique h1
    exact (h2 g2).elim
  · rw [(hq.unique h1).1, h2]
  · exact (g1.not_response h1).elim
  · exact (g1.not_response h1).elim

theorem sends_settings {env : Ext σ H} {ch : Choice} {s s' : Host σ} {raw out : Bytes} (hI : Inv env s)
    {q : OutboundRequest} {b : Bytes} (h : onInput env ch s raw = (s', .ok (some out))) (hq : IsRequest out q b)
    {k : Int} (hk : Responds raw k) : q.action = "internal:discovery/enviornmentsettings" ∧ Acknowledges raw k := by
  obtain ⟨rp, bd, g1, g2, g3⟩ := hk
  rcases outputs_cases env ch s hI raw out s' h with ⟨r, bd', _, h1, h2, _⟩ | ⟨⟨r, bd', h1, _⟩, _⟩ |
    ⟨_, q', _, ⟨rp', b', rest, h1, h2, h3, h4⟩, _, h5, h6, _⟩ | ⟨_, _, _, _, _, h1, _⟩
  · exact (h1.not_response g1).elim
  · exact (h1.not_response g1).elim
  · obtain ⟨rfl, rfl⟩ := IsResponse.unique g1 h1
    exact ⟨by rw [(hq.unique h5).1, h6], _, _, rest, g1, g2, g3, h4⟩
  · exact (hq.not_response h1).elim

theorem WireInv.input {env : Ext σ H} {l : List Exchange} {s : Host σ} (h : WireInv env l s) (ch : Choice) (raw : Bytes)
    (hpol : ∀ id, Responds raw id → ∃ e' ∈ l, e'.SendsId id) :
    WireInv env (l ++ [⟨raw, (onInput env ch s raw).2⟩]) (onInput env ch s raw).1 := by
  by_cases hno : ∀ k, ¬ (⟨raw, (onInput env ch s raw).2⟩ : Exchange).SendsId k
  · exact h.silent ch raw hno
  push Not at hno
  obtain ⟨k0, a0, out, q, b, ho, hq, hk0, -⟩ := hno
  have hI := h.inv
  have hI' := hI.onInput ch raw
  cases hx : onInput env ch s raw with
  | mk s' o =>
    rw [hx] at ho hI'
    simp only at ho hI' ⊢
    subst ho
    have hev : ∀ e ∈ l ++ [(⟨raw, .ok (some out)⟩ : Exchange)], ∀ k, e.SendsId k → e ∈ l ∨ k = q.tcp_header.request_id := by
      intro e he k hk
      rw [List.mem_append, List.mem_singleton] at he
      rcases he with he | rfl
      · exact .inl he
      · exact .inr (hq.sendsId rfl hk)
    have hids : s.ids ≤ s'.ids := by have := onInput_ids env ch s raw; rw [hx] at this; exact this
    rcases onInput_sends_request hI hx hq with ⟨hin, i, sreq, h1, h2, h3, h4, h5⟩ |
      ⟨k, n, hk, h1, h2, h3, h4, h5, h6⟩
    · have hact := sends_register hI hx hq hin
      have old : ∀ k p, (k, p) ∈ s.pending → k < s.ids := fun k p hk =>
        (hI.range k (List.mem_map.2 ⟨_, hk, rfl⟩)).2
      refine ⟨hI', ?_, ?_, ?_, ?_⟩
      · intro e he k hk
        rcases hev e he k hk with he | rfl
        · have := h.below e he k hk; omega
        · omega
      · intro k n hk e he hsend
        rw [h5, List.mem_append] at hk
        rcases hk with hk | hk
        · have := old _ _ hk
          rcases hev e he k hsend with he | rfl
          · exact (h.reg k n hk e he hsend).snoc _
          · omega
        · simp only [List.mem_cons, Prod.mk.injEq, List.not_mem_nil, or_false, reduceCtorEq, and_false, false_or] at hk
          refine ⟨l, ⟨raw, .ok (some out)⟩, [], rfl, hin, out, q, b, rfl, hq, by rw [h3, hk.1], hact⟩
      · intro k n hk k' n' hk'
        rw [h5, List.mem_append] at hk hk'
        simp only [List.mem_cons, Prod.mk.injEq, List.not_mem_nil, or_false, reduceCtorEq, and_false, false_or,
          Pending.registerRest.injEq] at hk hk'
        rcases hk with hk | ⟨rfl, rfl⟩
        · obtain ⟨_, _, j, _, _, e, hn⟩ := hI.reg k n hk
          have ej : n.tcp_header.request_id = (j : Int) := requestNew_id hn
          have := old _ _ hk
          rcases hk' with hk' | ⟨rfl, rfl⟩
          · exact h.wait k n hk k' n' hk'
          · omega
        · rcases hk' with hk' | ⟨rfl, rfl⟩
          · have := old _ _ hk'; omega
          · omega
      · intro k hk e he hsend
        rw [h5, List.mem_append] at hk
        simp only [List.mem_cons, Prod.mk.injEq, List.not_mem_nil, or_false, reduceCtorEq, and_false, or_false,
          and_true] at hk
        rcases hk with hk | rfl
        · have := old _ _ hk
          rcases hev e he k hsend with he | rfl
          · exact (h.set k hk e he hsend).snoc _
          · omega
        · rcases hev e he _ hsend with he | e
          · have := h.below e he _ hsend; omega
          · omega
    · obtain ⟨hact, hack⟩ := sends_settings hI hx hq hk
      have hkm := Dict.get?_mem h1
      obtain ⟨_, _, j, _, _, ej, hn⟩ := hI.reg k n hkm
      have en : n.tcp_header.request_id = (j : Int) := requestNew_id hn
      have hkr := hI.range k (List.mem_map.2 ⟨_, hkm, rfl⟩)
      refine ⟨hI', ?_, ?_, ?_, ?_⟩
      · intro e he k' hk'
        rcases hev e he k' hk' with he | rfl
        · have := h.below e he k' hk'; omega
        · omega
      · intro k' n' hk' e he hsend
        rw [h4] at hk'
        have hk' := (Dict.erase_sublist _ _).subset hk'
        rcases hev e he k' hsend with he | e'
        · exact (h.reg k' n' hk' e he hsend).snoc _
        · exact (h.wait k n hkm k' n' hk' (by rw [e', h2])).elim
      · intro k1 n1 hk1 k2 n2 hk2
        rw [h4] at hk1 hk2
        exact h.wait k1 n1 ((Dict.erase_sublist _ _).subset hk1) k2 n2 ((Dict.erase_sublist _ _).subset hk2)
      · intro k' hk' e he hsend
        rw [h4] at hk'
        have hk' := (Dict.erase_sublist _ _).subset hk'
        rcases hev e he k' hsend with he | e'
        · exact (h.set k' hk' e he hsend).snoc _
        · obtain ⟨e0, he0, hs0⟩ := hpol k hk
          obtain ⟨p1, e1, p2, rfl, g1, g2⟩ := h.reg k n hkm e0 he0 hs0
          exact ⟨p1, e1, p2, ⟨raw, .ok (some out)⟩, [], k, by simp, g1, g2, hack, out, q, b, rfl, hq, e'.symm, hact⟩

theorem History.wireInv {env : Ext σ H} {s0 s : Host σ} {l : List Exchange} (h : History env s0 l s) (h0 : Started s0)
    (hp : Polite l) : WireInv env l s := by
  induction h with
  | start =>
    have hI : Inv env s0 := Inv.started h0
    refine ⟨hI, by simp, by simp, ?_, by simp⟩
    rw [h0.1]; simp
  | input ch raw h ih =>
    obtain ⟨p1, p2⟩ := polite_snoc hp
    exact (ih p1).input ch raw p2
  | other n d x h hn ih =>
    have := ih hp
    exact ⟨this.inv.other hn d x, fun e he k hk => by have := this.below e he k hk; simp only; omega,
      this.reg, this.wait, this.set⟩

/-- Every event of a history is what the host did in the state the earlier events led to. -/
theorem History.event {env : Ext σ H} {s0 s : Host σ} {l : List Exchange} (h : History env s0 l s) {pre post : List Exchange}
    {e : Exchange} (hl : l = pre ++ e :: post) : ∃ s1 ch, History env s0 pre s1 ∧ e.output = (onInput env ch s1 e.input).2 := by
  induction h generalizing post with
  | start => simp at hl
  | @input l' s' ch raw h ih =>
    rcases List.eq_nil_or_concat post with rfl | ⟨post', x, rfl⟩
    · have := List.append_inj' hl (by simp)
      obtain ⟨rfl, e2⟩ := this
      simp only [List.cons.injEq, and_true] at e2
      subst e2
      exact ⟨s', ch, h, rfl⟩
    · have : l' = pre ++ e :: post' := by
        have h2 : l' ++ [(⟨raw, (onInput env ch s' raw).2⟩ : Exchange)] = (pre ++ e :: post') ++ [x] := by rw [hl]; simp
        exact (List.append_inj' h2 rfl).1
      exact ih this
  | other n d x h hn ih => exact ih hl

theorem History.reachable {env : Ext σ H} {s0 s : Host σ} {l : List Exchange} (h : History env s0 l s) (h0 : Started s0) :
    Reachable env s := by
  refine ⟨s0, h0, ?_⟩
  induction h with
  | start => exact .refl
  | input ch raw _ ih => exact .input ch raw ih trivial
  | other n d x _ hn ih => exact .other n d x ih hn

/-- Only a settings handler answers a response with a response. -/
theorem settings_of_response {env : Ext σ H} {s1 : Host σ} (hI : Inv env s1) {ch : Choice} {raw out : Bytes}
    {resp rr : OutboundResponse} {body rb : Bytes} (x1 : IsResponse raw resp body) (x2 : resp.tcp_header.isError = false)
    (h2 : (onInput env ch s1 raw).2 = .ok (some out)) (y2 : IsResponse out rr rb) :
    s1.pending.get? resp.tcp_header.request_id = some .settings := by
  rw [onInput_response x1, x2] at h2
  simp only [Bool.false_eq_true, if_false] at h2
  cases hg : s1.pending.get? resp.tcp_header.request_id with
  | none => unfold handleResponse at h2; simp only [hg] at h2; simp at h2
  | some p =>
    cases p with
    | settings => rfl
    | registerRest n =>
      exfalso
      unfold handleResponse at h2
      simp only [hg] at h2
      unfold handleRegistered at h2
      cases hb : AcknowledgedResponse.readFrom body with
      | error e => rw [hb] at h2; simp at h2
      | ok p =>
        obtain ⟨ack, rest⟩ := p
        rw [hb] at h2
        simp only at h2
        cases hs : ack.status with
        | false => rw [hs] at h2; simp at h2
        | true =>
          rw [hs] at h2
          simp only [if_true] at h2
          obtain ⟨ctx, f, i, c1, c2, c3, c4⟩ := hI.reg _ n (Dict.get?_mem hg)
          obtain ⟨q', q1, _⟩ := sent_request c4 c1 c2 settingsAction_ok h2
          exact (q1.not_response y2).elim

/-- C75 for peers that only answer what they were asked: over any history, the host sends a response while
handling a response (this is how the initialise response is sent) only after an initialise-extension request
made it send a registration request, then a positive acknowledgement of that registration made it send
a settings request, and now this settings request is answered.  Missing: peers that send a response with the id of a
request that was never sent (`C75_violated`). -/
theorem C75_order_partial (env : Ext σ H) (s0 s : Host σ) (h0 : Started s0) (l : List Exchange) (h : History env s0 l s)
    (hp : Polite l) (pre post : List Exchange) (e : Exchange) (hl : l = pre ++ e :: post) (a r : Int)
    (ha : Responds e.input a) (hr : e.SendsResponse r) :
    ∃ p1 e1 p2 e2 p3 b, pre = p1 ++ e1 :: (p2 ++ e2 :: p3) ∧ Initialises e1.input ∧
      e1.SendsRequest b "internal:discovery/registerrestactions" ∧ Acknowledges e2.input b ∧
      e2.SendsRequest a "internal:discovery/enviornmentsettings" := by
  obtain ⟨s1, ch, h1, h2⟩ := h.event hl
  have hpre : Polite pre := fun p e' q hpq => hp p e' (q ++ e :: post) (by rw [hl, hpq]; simp)
  have hW := h1.wireInv h0 hpre
  have hI := hW.inv
  obtain ⟨e', he', hs'⟩ := hp pre e post hl a ha
  obtain ⟨resp, body, x1, x2, x3⟩ := ha
  obtain ⟨out, rr, rb, y1, y2, y3⟩ := hr
  subst x3
  refine hW.set _ ?_ e' he' hs'
  rw [y1] at h2
  exact Dict.get?_mem (settings_of_response hI x1 x2 h2.symm y2)

/-- The state after the sample initialisation, and an answer to the settings request, which was not sent yet. -/
def earlyEvents : List Exchange :=
  [⟨sampleInitFrame, (onInput sampleExt sampleChoice sampleHost sampleInitFrame).2⟩]

def earlyEvent : Exchange :=
  ⟨sampleSettingsFrame 2, (onInput sampleExt sampleChoice sampleInited (sampleSettingsFrame 2)).2⟩

theorem earlyEvent_input : earlyEvent.input = sampleSettingsFrame 2 := by unfold earlyEvent; dsimp only

theorem earlyEvent_output : earlyEvent.output =
    (onInput sampleExt sampleChoice sampleInited (sampleSettingsFrame 2)).2 := by unfold earlyEvent; dsimp only

theorem earlyHistory : History sampleExt sampleHost (earlyEvents ++ [earlyEvent])
    (onInput sampleExt sampleChoice sampleInited (sampleSettingsFrame 2)).1 :=
  .input sampleChoice (sampleSettingsFrame 2) (.input sampleChoice sampleInitFrame .start)

/-- C75 is violated when peers are not trusted: a host just started gets an initialise-extension request and then, with
no acknowledgement of the registration ever received, and no settings request ever sent, a response with the
id the settings request would have; it sends the initialise response. -/
theorem C75_violated :
    ∃ (s : Host Nat) (pre : List Exchange) (e : Exchange), Started sampleHost ∧ History sampleExt sampleHost (pre ++ [e]) s ∧
      (∃ a, Responds e.input a ∧ ∀ e' ∈ pre, ∀ x, ¬ e'.SendsRequest a x) ∧ (∃ r, e.SendsResponse r) ∧
      ∀ e' ∈ pre, ∀ id, ¬ Acknowledges e'.input id := by
  obtain ⟨_, resp, r1, r2, r3⟩ := response_frame_parses sampleSettingsFrame_ok []
  rw [List.append_nil] at r1
  have hin : Initialises sampleInitFrame := by
    obtain ⟨_, _, req, q1, _, q3, _, _, _, _, _, _, q10⟩ := frame_parses sampleInitFrame_ok []
    rw [List.append_nil] at q1
    exact ⟨req, _, q1, q10⟩
  refine ⟨_, earlyEvents, earlyEvent, sampleHost_started, earlyHistory,
    ⟨2, by rw [earlyEvent_input]; exact ⟨resp, _, r1, r2, r3⟩, ?_⟩, ?_, ?_⟩
  · intro e' he' x hx
    simp only [earlyEvents, List.mem_singleton] at he'
    subst he'
    obtain ⟨out, q, b, h1, h2, h3, h4⟩ := hx
    simp only at h1
    rcases onInput_sends_request (s' := (onInput sampleExt sampleChoice sampleHost sampleInitFrame).1)
      (ch := sampleChoice) (raw := sampleInitFrame) (out := out) sampleHost_reachable.inv
      (by rw [← h1]) h2 with
      ⟨_, i, sreq, g1, g2, g3, g4, g5⟩ | ⟨k, n, _, g1, _⟩
    · have : (onInput sampleExt sampleChoice sampleHost sampleInitFrame).1.ids = 4 := by decide +kernel
      omega
    · simp [sampleHost, Dict.get?] at g1
  · have hsome : ((onInput sampleExt sampleChoice sampleInited (sampleSettingsFrame 2)).2.toOption.join).isSome := by
      decide +kernel
    obtain ⟨s', hs'⟩ : ∃ s', (onInput sampleExt sampleChoice sampleInited (sampleSettingsFrame 2)).1 = s' := ⟨_, rfl⟩
    cases ho : (onInput sampleExt sampleChoice sampleInited (sampleSettingsFrame 2)).2 with
    | error e => rw [ho] at hsome; simp [Except.toOption] at hsome
    | ok o =>
      cases o with
      | none => rw [ho] at hsome; simp [Except.toOption] at hsome
      | some out =>
        rcases outputs_cases sampleExt sampleChoice sampleInited sampleInited_reachable.inv (sampleSettingsFrame 2) out s'
          (Prod.ext hs' ho) with ⟨r, b, _, h1, _⟩ | ⟨⟨r, b, h1, _⟩, _⟩ | ⟨_, _, _, ⟨p, b, rest, h1, _, _, h2⟩, _⟩ |
          ⟨_, r, b, _, _, h1, _⟩
        · exact (h1.not_response r1).elim
        · exact (h1.not_response r1).elim
        · obtain ⟨_, rfl⟩ := IsResponse.unique r1 h1
          rw [List.append_nil] at h2
          have hd : (AcknowledgedResponse.readFrom (Settings.writeTo sampleSettings).out).toOption.map (·.1.status) ≠
              some true := by decide +kernel
          rw [h2] at hd
          simp [Except.toOption] at hd
        · exact ⟨r.tcp_header.request_id, out, r, b, earlyEvent_output.trans ho, h1, rfl⟩
  · intro e' he' id ⟨p, b, rest, h1, _⟩
    simp only [earlyEvents, List.mem_singleton] at he'
    subst he'
    obtain ⟨req, bd, g1, _⟩ := hin
    dsimp only at h1
    exact (g1.not_response h1).elim

/-! ## C78: no unasked answers -/

/-- The stored initialise response is that of a request of the history. -/
theorem History.init_source {env : Ext σ H} {s0 s : Host σ} {l : List Exchange} (h : History env s0 l s) (h0 : Started s0)
    {r : OutboundResponse} (hr : s.init = some r) :
    ∃ e ∈ l, ∃ req body ids, IsRequest e.input req body ∧ req.action = "internal:discovery/extensions" ∧
      IsInitResponse env r req ids := by
  induction h with
  | start => rw [h0.2] at hr; cases hr
  | @input l s ch raw h ih =>
    rcases onInput_effect env ch s raw with ⟨_, h1, _⟩ | ⟨resp, body, q, he, _, h1, _⟩ |
      ⟨req, body, q, ha, i, sreq, response, hi, h1, hsr, h2, h3, h4, _⟩
    · obtain ⟨e, he, x⟩ := ih (by rw [← h1]; exact hr)
      exact ⟨e, List.mem_append_left _ he, x⟩
    · obtain ⟨e, he, x⟩ := ih (by rw [← h1]; exact hr)
      exact ⟨e, List.mem_append_left _ he, x⟩
    · rw [h4] at hr
      cases hr
      exact ⟨_, List.mem_append_right _ (List.mem_singleton_self _), req, body, _, q, ha, h3⟩
  | other n d x h hn ih => exact ih hr

/-- C78: whatever the peers send (their requests having ids other than 0), every response the host sends answers a
request it got: the one it is handling, or an earlier initialise-extension request. -/
theorem C78_answers_only (env : Ext σ H) (s0 s : Host σ) (h0 : Started s0) (l : List Exchange) (h : History env s0 l s)
    (hid : ∀ e ∈ l, ∀ req body, IsRequest e.input req body → req.tcp_header.request_id ≠ 0)
    (pre post : List Exchange) (e : Exchange) (hl : l = pre ++ e :: post) (out : Bytes) (ho : e.output = .ok (some out))
    (r : OutboundResponse) (rbody : Bytes) (hr : IsResponse out r rbody) :
    (∃ req body, IsRequest e.input req body ∧ ∃ b, Answers out req b) ∨
    ∃ e0 ∈ pre, ∃ req body, IsRequest e0.input req body ∧ req.action = "internal:discovery/extensions" ∧
      ∃ b, Answers out req b := by
  obtain ⟨s1, ch, h1, h2⟩ := h.event hl
  have hI := (h1.reachable h0).inv
  rw [ho] at h2
  obtain ⟨s', hs'⟩ : ∃ s', (onInput env ch s1 e.input).1 = s' := ⟨_, rfl⟩
  have hx : onInput env ch s1 e.input = (s', .ok (some out)) := Prod.ext hs' h2.symm
  rcases outputs_cases env ch s1 hI e.input out s' hx with ⟨req, b, rb, g1, g2, g3⟩ | ⟨_, q, b, g1, _⟩ |
    ⟨_, q, b, _, _, g1, _⟩ | ⟨_, r', b, ⟨resp, body, q1, q2, q3⟩, _, g1, _⟩
  · exact .inl ⟨req, b, g1, rb, g3 (hid e (by rw [hl]; simp) req b g1)⟩
  · exact (g1.not_response hr).elim
  · exact (g1.not_response hr).elim
  · right
    rw [onInput_response q1, q2] at hx
    simp only [Bool.false_eq_true, if_false] at hx
    unfold handleResponse at hx
    cases hg : s1.pending.get? resp.tcp_header.request_id with
    | none => simp only [hg] at hx; simp at hx
    | some p =>
      simp only [hg] at hx
      cases p with
      | registerRest n =>
        exfalso
        simp only at hx
        unfold handleRegistered at hx
        cases hb : AcknowledgedResponse.readFrom body with
        | error e => rw [hb] at hx; simp at hx
        | ok p =>
          obtain ⟨ack, rest⟩ := p
          rw [hb] at hx
          simp only at hx
          cases hs : ack.status with
          | false => rw [hs] at hx; simp at hx
          | true =>
            rw [hs] at hx
            simp only [if_true, Prod.mk.injEq] at hx
            obtain ⟨ctx, f, i, c1, c2, c3, c4⟩ := hI.reg _ n (Dict.get?_mem hg)
            obtain ⟨q', q1, _⟩ := sent_request c4 c1 c2 settingsAction_ok hx.2
            exact (q1.not_response g1).elim
      | settings =>
        simp only at hx
        unfold handleSettings at hx
        cases hsr : Settings.readFrom env.depth s1.settings body with
        | mk d x =>
          cases x with
          | error e => simp only [hsr] at hx; simp at hx
          | ok rest =>
            simp only [hsr, Prod.mk.injEq] at hx
            cases hi : s1.init with
            | none => simp [hi] at hx
            | some rr =>
              simp only [hi] at hx
              obtain ⟨e0, he0, req, bd, ids, c1, c2, c3⟩ := h1.init_source h0 hi
              obtain ⟨w1, w2⟩ := written_ok.1 hx.2
              have hrep := (response_on_wire ch.ho c3 (parsesAsRequest_ok c1.1).2.2 w1).2
              have w2' : (rr.toOutboundMessage.writeTo ch.ho).out = out := w2
              rw [w2'] at hrep
              have hch : chosenId (some req.tcp_header.request_id) ids = req.tcp_header.request_id := by
                have := hid e0 (by rw [hl]; exact List.mem_append_left _ he0) req bd c1
                unfold chosenId; simp [this]
              rw [hch] at hrep
              exact ⟨e0, he0, req, bd, c1, c2, _, hrep⟩

/-! ## C77: the table does not grow with traffic -/

open Classical in
/-- C77: over any history, at most two ids per initialise-extension request are ever awaited; other requests, answers and
garbage leave nothing behind. -/
theorem C77_bounded (env : Ext σ H) (s0 s : Host σ) (h0 : Started s0) (l : List Exchange) (h : History env s0 l s) :
    s.pending.length ≤ 2 * l.countP (fun e => decide (Initialises e.input)) := by
  induction h with
  | start => rw [h0.1]; simp
  | @input l s ch raw h ih =>
    have hI := (h.reachable h0).inv
    rw [List.countP_append]
    rcases onInput_effect env ch s raw with ⟨h1, _⟩ | ⟨resp, body, q, he, h1, _⟩ |
      ⟨req, body, q, ha, i, sreq, response, hi, h1, hsr, h2, _⟩
    · rw [h1]; omega
    · rw [h1]
      have := (Dict.erase_sublist s.pending resp.tcp_header.request_id).length_le
      omega
    · have hge := idsAfter_ge (some req.tcp_header.request_id) (s.ids + 2)
      rw [h2, set_two hI (by omega)]
      have hin : Initialises raw := ⟨req, body, q, ha⟩
      simp [hin]; omega
  | other n d x h hn ih => exact ih

/-! ## Cases that meet the hypotheses -/

/-- The sample host after the acknowledgement of the registration. -/
def sampleAcked : Host Nat := (onInput sampleExt sampleChoice sampleInited (sampleAck true 3)).1

/-- The whole sample initialisation. -/
def sampleEvent1 : Exchange := ⟨sampleInitFrame, (onInput sampleExt sampleChoice sampleHost sampleInitFrame).2⟩
def sampleEvent2 : Exchange := ⟨sampleAck true 3, (onInput sampleExt sampleChoice sampleInited (sampleAck true 3)).2⟩
def sampleEvent3 : Exchange :=
  ⟨sampleSettingsFrame 2, (onInput sampleExt sampleChoice sampleAcked (sampleSettingsFrame 2)).2⟩

theorem responds_unique {raw : Bytes} {a b : Int} (h : Responds raw a) (h' : Responds raw b) : a = b := by
  obtain ⟨r, _, h1, _, h2⟩ := h
  obtain ⟨r', _, h1', _, h2'⟩ := h'
  rw [← h2, ← h2', (IsResponse.unique h1 h1').1]

theorem sampleInit_initialises : Initialises sampleInitFrame := by
  obtain ⟨_, _, req, q1, _, q3, _, _, _, _, _, _, q10⟩ := frame_parses sampleInitFrame_ok []
  rw [List.append_nil] at q1
  exact ⟨req, _, q1, q10⟩

theorem responseFrame_responds {frame : Bytes} {w : W} {id : Int} (h : ResponseFrame frame w id) : Responds frame id := by
  obtain ⟨_, resp, r1, r2, r3⟩ := response_frame_parses h []
  rw [List.append_nil] at r1
  exact ⟨resp, _, r1, r2, r3⟩

theorem some_of_isSome {o : Except Err (Option Bytes)} (h : (o.toOption.join).isSome) : ∃ out, o = .ok (some out) := by
  cases o with
  | error e => simp [Except.toOption] at h
  | ok o =>
    cases o with
    | none => simp [Except.toOption] at h
    | some out => exact ⟨out, rfl⟩

theorem sampleEvent1_sends : sampleEvent1.SendsRequest 3 "internal:discovery/registerrestactions" := by
  obtain ⟨out, ho⟩ := some_of_isSome
    (show ((onInput sampleExt sampleChoice sampleHost sampleInitFrame).2.toOption.join).isSome by decide +kernel)
  have hx : onInput sampleExt sampleChoice sampleHost sampleInitFrame = (sampleInited, .ok (some out)) := by
    rw [← ho]; unfold sampleInited; rw [Prod.mk.eta]
  rcases outputs_cases sampleExt sampleChoice sampleHost sampleHost_reachable.inv sampleInitFrame out sampleInited hx with
    ⟨r, b, _, h1, h2, _⟩ | ⟨_, q, b, h1, h2, _⟩ | ⟨_, _, _, ⟨_, _, _, h1, _⟩, _⟩ | ⟨_, _, _, ⟨_, _, h1, _⟩, _⟩
  · obtain ⟨r', b', g1, g2⟩ := sampleInit_initialises
    obtain ⟨rfl, _⟩ := g1.unique h1
    exact (h2 g2).elim
  · rcases onInput_sends_request sampleHost_reachable.inv hx h1 with ⟨_, i, sreq, g1, g2, g3, _⟩ | ⟨k, n, _, g1, _⟩
    · have : sampleInited.ids = 4 := by decide +kernel
      exact ⟨out, q, b, by unfold sampleEvent1; dsimp only; exact ho, h1, by omega, h2⟩
    · simp [sampleHost, Dict.get?] at g1
  · obtain ⟨r', b', g1, g2⟩ := sampleInit_initialises
    exact (g1.not_response h1).elim
  · obtain ⟨r', b', g1, g2⟩ := sampleInit_initialises
    exact (g1.not_response h1).elim

theorem sampleEvent2_sends : sampleEvent2.SendsRequest 2 "internal:discovery/enviornmentsettings" := by
  obtain ⟨out, ho⟩ := some_of_isSome
    (show ((onInput sampleExt sampleChoice sampleInited (sampleAck true 3)).2.toOption.join).isSome by decide +kernel)
  have hx : onInput sampleExt sampleChoice sampleInited (sampleAck true 3) = (sampleAcked, .ok (some out)) := by
    rw [← ho]; unfold sampleAcked; rw [Prod.mk.eta]
  have hresp := responseFrame_responds (sampleAck_ok true)
  have hI := sampleInited_reachable.inv
  rcases outputs_cases sampleExt sampleChoice sampleInited hI (sampleAck true 3) out sampleAcked hx with
    ⟨r, b, _, h1, h2, _⟩ | ⟨⟨r, b, h1, _⟩, _⟩ | ⟨_, q, b, _, _, h1, h2, _⟩ | ⟨_, r, b, _, _, h1, _⟩
  · obtain ⟨r', b', g1, g2⟩ := hresp
    exact (h1.not_response g1).elim
  · obtain ⟨r', b', g1, g2⟩ := hresp
    exact (h1.not_response g1).elim
  · rcases onInput_sends_request hI hx h1 with ⟨⟨r, b, g1, _⟩, _⟩ | ⟨k, n, hk, g1, g2, _⟩
    · obtain ⟨r', b', g1', _⟩ := hresp
      exact (g1.not_response g1').elim
    · have e := responds_unique hk hresp
      obtain ⟨_, _, j, _, _, ej, hn⟩ := hI.reg k n (Dict.get?_mem g1)
      have en : n.tcp_header.request_id = (j : Int) := requestNew_id hn
      exact ⟨out, q, b, by unfold sampleEvent2; dsimp only; exact ho, h1, by omega, h2⟩
  · obtain ⟨r', b', g1, g2, g3⟩ := hresp
    have := settings_of_response hI g1 g2 ho h1
    rw [g3] at this
    exact absurd this (by decide +kernel)


theorem sampleHistory : History sampleExt sampleHost [sampleEvent1, sampleEvent2, sampleEvent3]
    (onInput sampleExt sampleChoice sampleAcked (sampleSettingsFrame 2)).1 :=
  .input sampleChoice (sampleSettingsFrame 2) (.input sampleChoice (sampleAck true 3)
    (.input sampleChoice sampleInitFrame .start))

theorem sampleInit_not_response {a : Int} : ¬ Responds sampleInitFrame a := fun ⟨_, _, h, _⟩ => by
  obtain ⟨_, _, g, _⟩ := sampleInit_initialises
  exact g.not_response h

/-- C75: the peer of the sample initialisation answers only what it was asked. -/
theorem samplePolite : Polite [sampleEvent1, sampleEvent2, sampleEvent3] := by
  intro pre e post hl id hid
  match pre, hl with
  | [], hl =>
    simp only [List.nil_append, List.cons.injEq] at hl
    rw [← hl.1] at hid
    unfold sampleEvent1 at hid
    dsimp only at hid
    exact (sampleInit_not_response hid).elim
  | [x], hl =>
    simp only [List.cons_append, List.nil_append, List.cons.injEq] at hl
    rw [← hl.2.1] at hid
    unfold sampleEvent2 at hid
    dsimp only at hid
    refine ⟨x, by simp, "internal:discovery/registerrestactions", ?_⟩
    rw [← hl.1, responds_unique hid (responseFrame_responds (sampleAck_ok true))]
    exact sampleEvent1_sends
  | [x, y], hl =>
    simp only [List.cons_append, List.nil_append, List.cons.injEq] at hl
    rw [← hl.2.2.1] at hid
    unfold sampleEvent3 at hid
    dsimp only at hid
    refine ⟨y, by simp, "internal:discovery/enviornmentsettings", ?_⟩
    rw [← hl.2.1, responds_unique hid (responseFrame_responds sampleSettingsFrame_ok)]
    exact sampleEvent2_sends
  | x :: y :: z :: w, hl =>
    have := congrArg List.length hl
    simp at this

/-- C75, C76, C77, C78: the whole sample initialisation is a history of a fresh host, and every step sends something. -/
example : Started sampleHost ∧ Polite [sampleEvent1, sampleEvent2, sampleEvent3] ∧
    (∃ s, History sampleExt sampleHost [sampleEvent1, sampleEvent2, sampleEvent3] s) ∧
    ((sampleEvent1.output.toOption.join).isSome ∧ (sampleEvent2.output.toOption.join).isSome ∧
      (sampleEvent3.output.toOption.join).isSome) ∧ Responds sampleEvent3.input 2 :=
  ⟨sampleHost_started, samplePolite, ⟨_, sampleHistory⟩, by decide +kernel,
    by unfold sampleEvent3; exact responseFrame_responds sampleSettingsFrame_ok⟩

theorem sampleEvent1_input : sampleEvent1.input = sampleInitFrame := by unfold sampleEvent1; dsimp only
theorem sampleEvent2_input : sampleEvent2.input = sampleAck true 3 := by unfold sampleEvent2; dsimp only
theorem sampleEvent3_input : sampleEvent3.input = sampleSettingsFrame 2 := by unfold sampleEvent3; dsimp only

/-- What the host sends at the end of the sample history: the answer to the initialisation. -/
def sampleFinal : Bytes := sentOut sampleExt sampleChoice sampleAcked (sampleSettingsFrame 2)

theorem sampleEvent3_output : sampleEvent3.output = .ok (some sampleFinal) := by
  have e : sampleEvent3.output = (onInput sampleExt sampleChoice sampleAcked (sampleSettingsFrame 2)).2 := by
    unfold sampleEvent3; dsimp only
  rw [e, sends_of (env := sampleExt) (ch := sampleChoice) (s := sampleAcked) (raw := sampleSettingsFrame 2)
    (by decide +kernel)]
  rfl

theorem sampleFinal_isResponse : IsResponse sampleFinal (responseIn sampleFinal) (responseBody sampleFinal) :=
  isResponse_of (by decide +kernel) (by decide +kernel)

theorem sampleEvent3_sends : sampleEvent3.SendsResponse 11 :=
  ⟨_, _, _, sampleEvent3_output, sampleFinal_isResponse, by decide +kernel⟩

theorem sampleIds : ∀ e ∈ [sampleEvent1, sampleEvent2, sampleEvent3], ∀ req body, IsRequest e.input req body →
    req.tcp_header.request_id ≠ 0 := by
  intro e he req body hr
  simp only [List.mem_cons, List.not_mem_nil, or_false] at he
  rcases he with rfl | rfl | rfl
  · rw [sampleEvent1_input] at hr
    rw [(IsRequest.unique hr sampleInit_isRequest).1]
    decide +kernel
  · rw [sampleEvent2_input] at hr
    obtain ⟨_, _, h, _⟩ := responseFrame_responds (sampleAck_ok true)
    exact absurd h (IsRequest.not_response hr)
  · rw [sampleEvent3_input] at hr
    obtain ⟨_, _, h, _⟩ := responseFrame_responds sampleSettingsFrame_ok
    exact absurd h (IsRequest.not_response hr)

example := C75_order_partial sampleExt sampleHost _ sampleHost_started _ sampleHistory samplePolite
  [sampleEvent1, sampleEvent2] [] sampleEvent3 rfl 2 11 (by rw [sampleEvent3_input]; exact responseFrame_responds sampleSettingsFrame_ok) sampleEvent3_sends
example := C78_answers_only sampleExt sampleHost _ sampleHost_started _ sampleHistory sampleIds
  [sampleEvent1, sampleEvent2] [] sampleEvent3 rfl _ sampleEvent3_output _ _ sampleFinal_isResponse
example := C77_bounded sampleExt sampleHost _ sampleHost_started _ sampleHistory

end Verif
