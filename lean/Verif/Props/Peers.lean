import Verif.Props.Order
import Verif.Props.Server
import Verif.Spec.Peers
/-!
# C93: the initialise response and the peer that asked
-/

namespace Verif
open Py StreamInput StreamOutput

variable {σ H : Type}

/-! ## Histories -/

theorem History.trans {env : Ext σ H} {s0 s1 s2 : Host σ} {l l' : List Exchange} (h : History env s0 l s1)
    (h' : History env s1 l' s2) : History env s0 (l ++ l') s2 := by
  induction h' with
  | start => simpa using h
  | input ch raw _ ih => rw [← List.append_assoc]; exact .input ch raw ih
  | other n d x _ hn ih => exact .other n d x ih hn

theorem History.split {env : Ext σ H} {s0 s : Host σ} {l : List Exchange} (h : History env s0 l s) {l1 l2 : List Exchange}
    (hl : l = l1 ++ l2) : ∃ s1, History env s0 l1 s1 ∧ History env s1 l2 s := by
  induction h generalizing l2 with
  | start =>
    obtain ⟨rfl, rfl⟩ := List.nil_eq_append_iff.1 hl
    exact ⟨s0, .start, .start⟩
  | @input l' s' ch raw h ih =>
    rcases List.eq_nil_or_concat l2 with rfl | ⟨l2', x, rfl⟩
    · rw [List.append_nil] at hl
      subst hl
      exact ⟨_, .input ch raw h, .start⟩
    · rw [List.concat_eq_append, ← List.append_assoc] at hl
      obtain ⟨hl', hx⟩ := List.append_inj' hl rfl
      obtain ⟨s1, h1, h2⟩ := ih hl'
      simp only [List.cons.injEq, and_true] at hx
      subst hx
      rw [List.concat_eq_append]
      exact ⟨s1, h1, .input ch raw h2⟩
  | other n d x h hn ih =>
    obtain ⟨s1, h1, h2⟩ := ih hl
    exact ⟨s1, h1, .other n d x h2 hn⟩

theorem History.evolves {env : Ext σ H} {s0 s : Host σ} {l : List Exchange} (h : History env s0 l s) :
    Evolves env (fun _ => True) s0 s := by
  induction h with
  | start => exact .refl
  | input ch raw _ ih => exact .input ch raw ih trivial
  | other n d x _ hn ih => exact .other n d x ih hn

/-- The first event of a history. -/
theorem History.first {env : Ext σ H} {s0 s : Host σ} {e : Exchange} {l : List Exchange} (h : History env s0 (e :: l) s) :
    ∃ s1 ch, History env s0 [] s1 ∧ e.output = (onInput env ch s1 e.input).2 ∧
      History env (onInput env ch s1 e.input).1 l s := by
  obtain ⟨s2, h1, h2⟩ := h.split (l1 := [e]) (l2 := l) rfl
  clear h
  generalize hx : [e] = x at h1
  induction h1 generalizing s with
  | start => simp at hx
  | @input l' s' ch raw h ih =>
    cases l' with
    | nil =>
      simp only [List.nil_append, List.cons.injEq, and_true] at hx
      subst hx
      exact ⟨s', ch, h, rfl, h2⟩
    | cons y l' => simp at hx
  | other n d x h hn ih =>
    subst hx
    have : History env _ ([] ++ l) s := (History.other n d x .start hn).trans h2
    exact ih this rfl

/-- No two requests sent have the same id. -/
theorem History.request_unique {env : Ext σ H} {s0 s : Host σ} {l : List Exchange} (h : History env s0 l s) (h0 : Started s0)
    {p q r : List Exchange} {e e' : Exchange} {id : Int} {a a' : String} (hl : l = p ++ e :: (q ++ e' :: r))
    (he : e.SendsRequest id a) (he' : e'.SendsRequest id a') : False := by
  obtain ⟨s1, h1, h2⟩ := h.split hl
  obtain ⟨s2, ch, h3, h4, h5⟩ := h2.first
  obtain ⟨s3, h6, h7⟩ := h5.split rfl
  obtain ⟨s4, ch', h8, h9, -⟩ := h7.first
  obtain ⟨out, q1, b, o1, r1, i1, -⟩ := he
  obtain ⟨out', q2, b', o2, r2, i2, -⟩ := he'
  rw [o1] at h4
  rw [o2] at h9
  have hs2 : Reachable env s2 := (h1.reachable h0).evolves h3.evolves
  refine C46_wire env ch ch' s2 _ s4 _ hs2 (Prod.ext rfl h4.symm) r1 (h6.evolves.trans h8.evolves) (Prod.ext rfl h9.symm) r2 ?_
  rw [i1, i2]

/-- The stored initialise response is the one there was before, or that of a request of the history. -/
theorem History.init_or {env : Ext σ H} {s0 s : Host σ} {l : List Exchange} (h : History env s0 l s)
    {r : OutboundResponse} (hr : s.init = some r) :
    s0.init = some r ∨ ∃ e ∈ l, ∃ req body ids, IsRequest e.input req body ∧ req.action = "internal:discovery/extensions" ∧
      IsInitResponse env r req ids := by
  induction h with
  | start => exact .inl hr
  | @input l s ch raw h ih =>
    rcases onInput_effect env ch s raw with ⟨_, h1, _⟩ | ⟨resp, body, q, he, _, h1, _⟩ |
      ⟨req, body, q, ha, i, sreq, response, hi, h1, hsr, h2, h3, h4, _⟩
    · rcases ih (by rw [← h1]; exact hr) with g | ⟨e, he, x⟩
      · exact .inl g
      · exact .inr ⟨e, List.mem_append_left _ he, x⟩
    · rcases ih (by rw [← h1]; exact hr) with g | ⟨e, he, x⟩
      · exact .inl g
      · exact .inr ⟨e, List.mem_append_left _ he, x⟩
    · rw [h4] at hr
      cases hr
      exact .inr ⟨_, List.mem_append_right _ (List.mem_singleton_self _), req, body, _, q, ha, h3⟩
  | other n d x h hn ih => exact ih hr

/-- A response sent while handling a response is the stored initialise response. -/
theorem response_is_init {env : Ext σ H} {s1 : Host σ} (hI : Inv env s1) {ch : Choice} {raw out : Bytes}
    {resp rr : OutboundResponse} {body rb : Bytes} (x1 : IsResponse raw resp body) (x2 : resp.tcp_header.isError = false)
    (h2 : (onInput env ch s1 raw).2 = .ok (some out)) (y2 : IsResponse out rr rb) :
    ∃ r, s1.init = some r ∧ (r.writeTo ch.ho).err = none ∧ (r.writeTo ch.ho).out = out := by
  have hg := settings_of_response hI x1 x2 h2 y2
  rw [onInput_response x1, x2] at h2
  simp only [Bool.false_eq_true, if_false] at h2
  unfold handleResponse at h2
  simp only [hg] at h2
  unfold handleSettings at h2
  cases hsr : Settings.readFrom env.depth s1.settings body with
  | mk d x =>
    cases x with
    | error e => simp only [hsr] at h2; simp at h2
    | ok rest =>
      cases hi : s1.init with
      | none => simp [hsr, hi] at h2
      | some r =>
        simp only [hsr, hi] at h2
        obtain ⟨w1, w2⟩ := written_ok.1 h2
        exact ⟨r, rfl, w1, w2⟩

/-- An initialisation that made the host send something is the one that is stored. -/
theorem init_stored {env : Ext σ H} {s : Host σ} {ch : Choice} {raw out : Bytes} (hraw : Initialises raw)
    (h : (onInput env ch s raw).2 = .ok (some out)) :
    ∃ r req body ids, (onInput env ch s raw).1.init = some r ∧ IsRequest raw req body ∧
      req.action = "internal:discovery/extensions" ∧ IsInitResponse env r req ids := by
  obtain ⟨req, body, hr, ha⟩ := hraw
  have e : handleRequest env ch { s with ids := s.ids + 2 } req body =
      handleInit env ch { s with ids := s.ids + 2 } req body := by
    unfold handleRequest; rw [if_pos ha]
  rw [onInput_request hr, e] at h ⊢
  cases hb : InitializeExtensionRequest.readFrom body with
  | error e =>
    have : handleInit env ch { s with ids := s.ids + 2 } req body = ({ s with ids := s.ids + 2 }, .error e) := by
      unfold handleInit; rw [hb]
    rw [this] at h; simp at h
  | ok p =>
    obtain ⟨m, rest⟩ := p
    obtain ⟨response, sreq, rreq, i, hi, h1, h2, h3, h4⟩ := handleInit_ok env ch { s with ids := s.ids + 2 } req hb
    rw [h4]
    exact ⟨response, req, body, _, rfl, hr, ha, h1⟩

/-- The exchanges of a run are a history of the host. -/
theorem run_history {env : Ext σ H} {S S' : Server σ} {es : List (Event σ)} (h : S.run env es = some S') :
    History env S.host ((exchanges env S.host es).map (·.2)) S'.host := by
  induction es generalizing S with
  | nil => simp only [Server.run, Option.some.injEq] at h; subst h; exact .start
  | cons e es ih =>
    obtain ⟨T, h1, h2⟩ := run_cons h
    have hh := step_host h1
    have := ih h2
    cases e with
    | recv c ch raw =>
      rw [hh] at this
      exact (History.input ch raw .start).trans this
    | other n d x =>
      simp only [Server.step] at h1
      split at h1
      · next hn =>
        rw [hh] at this
        exact (History.other n d x .start hn).trans this
      · simp at h1
    | _ => rw [hh] at this; exact this

/-! ## C93 -/

/-- C93, the part that holds: in any run in which peers answer only requests they were sent themselves (and use ids other
than 0), every response the host sends on a connection either answers the request just read on that connection, or finishes an
initialisation that was asked for on that connection; and then, unless an initialisation was asked for on another connection in
between, it answers an initialise-extension request read on that connection. -/
theorem C93_partial (env : Ext σ H) {s : Host σ} {S : Server σ} {es : List (Event σ)}
    (h : (Server.start s).run env es = some S) (hs : Started s)
    (hid : ∀ x ∈ exchanges env s es, ∀ req body, IsRequest x.2.input req body → req.tcp_header.request_id ≠ 0)
    (hown : OwnAnswers (exchanges env s es))
    (pre post : List (Nat × Exchange)) (c : Nat) (e : Exchange) (hl : exchanges env s es = pre ++ (c, e) :: post)
    (out : Bytes) (ho : e.output = .ok (some out)) (r : OutboundResponse) (rbody : Bytes) (hr : IsResponse out r rbody) :
    (∃ req body, IsRequest e.input req body ∧ ∃ b, Answers out req b) ∨
    ∃ p1 e1 p2, pre = p1 ++ (c, e1) :: p2 ∧ Initialises e1.input ∧
      (∃ b, e1.SendsRequest b "internal:discovery/registerrestactions") ∧
      ((∀ x ∈ p2, Initialises x.2.input → x.1 = c) →
        ∃ e0, (c, e0) ∈ (c, e1) :: p2 ∧ ∃ req body, IsRequest e0.input req body ∧
          req.action = "internal:discovery/extensions" ∧ ∃ b, Answers out req b) := by
  have hH : History env s ((exchanges env s es).map (·.2)) S.host := run_history h
  have hpol : Polite ((exchanges env s es).map (·.2)) := by
    intro p x q hq id hi
    obtain ⟨p', q', e1, e2, e3⟩ := List.map_eq_append_iff.1 hq
    obtain ⟨⟨d, y⟩, q'', rfl, rfl, e5⟩ := List.map_eq_cons_iff.1 e3
    obtain ⟨e', a, he', ha⟩ := hown p' d y q'' e1 id hi
    exact ⟨e', by rw [← e2]; exact List.mem_map.2 ⟨_, he', rfl⟩, a, ha⟩
  have hl' : (exchanges env s es).map (·.2) = pre.map (·.2) ++ e :: post.map (·.2) := by rw [hl]; simp
  obtain ⟨s1, ch, h1, h2⟩ := hH.event hl'
  have hI := (h1.reachable hs).inv
  have h2' := h2
  rw [ho] at h2
  have hx : onInput env ch s1 e.input = ((onInput env ch s1 e.input).1, .ok (some out)) := Prod.ext rfl h2.symm
  rcases outputs_cases env ch s1 hI e.input out _ hx with ⟨req, b, rb, g1, g2, g3⟩ | ⟨_, q, b, g1, _⟩ |
    ⟨_, q, b, _, _, g1, _⟩ | ⟨a, r', b, hresp, _, g1, _⟩
  · exact .inl ⟨req, b, g1, rb, g3 (hid (c, e) (by rw [hl]; simp) req b g1)⟩
  · exact (g1.not_response hr).elim
  · exact (g1.not_response hr).elim
  right
  obtain ⟨q1, e1, q2, e2, q3, b, hpre, k1, k2, k3, k4⟩ := C75_order_partial env s S.host hs _ hH hpol _ _ e hl' a _ hresp
    ⟨out, r, rbody, ho, hr, rfl⟩
  -- the connections
  obtain ⟨p1, t1, rfl, m1, m2⟩ := List.map_eq_append_iff.1 hpre
  obtain ⟨⟨c1, y1⟩, t2, rfl, m3, m4⟩ := List.map_eq_cons_iff.1 m2
  simp only at m3
  subst m3
  obtain ⟨p2, t3, rfl, m5, m6⟩ := List.map_eq_append_iff.1 m4
  obtain ⟨⟨c2, y2⟩, p3, rfl, m7, m8⟩ := List.map_eq_cons_iff.1 m6
  simp only at m7
  subst m7
  -- the request with id a was sent on c, and on c2
  have hc2 : c2 = c := by
    obtain ⟨e', x, he', hx'⟩ := hown _ c e post hl a hresp
    obtain ⟨u, v, huv⟩ := List.append_of_mem he'
    by_contra hne
    rcases List.append_eq_append_iff.1 (show u ++ (c, e') :: v = (p1 ++ (c1, y1) :: p2) ++ (c2, y2) :: p3 by
      rw [← huv]; simp) with ⟨w, w1, w2⟩ | ⟨w, w1, w2⟩
    · cases w with
      | nil => simp only [List.nil_append, List.cons.injEq, Prod.mk.injEq] at w2; exact hne w2.1.1.symm
      | cons z w =>
        simp only [List.cons_append, List.cons.injEq] at w2
        refine hH.request_unique hs (p := u.map (·.2)) (e := e') (q := w.map (·.2)) (e' := y2)
          (r := p3.map (·.2) ++ e :: post.map (·.2)) ?_ hx' k4
        rw [hl, huv, w2.2]; simp
    · cases w with
      | nil => simp only [List.nil_append, List.cons.injEq, Prod.mk.injEq] at w2; exact hne w2.1.1
      | cons z w =>
        simp only [List.cons_append, List.cons.injEq] at w2
        refine hH.request_unique hs (p := (p1 ++ (c1, y1) :: p2).map (·.2)) (e := y2) (q := w.map (·.2)) (e' := e')
          (r := v.map (·.2) ++ e :: post.map (·.2)) ?_ k4 hx'
        rw [hl]
        have : p1 ++ (c1, y1) :: (p2 ++ (c2, y2) :: p3) = (p1 ++ (c1, y1) :: p2) ++ (c2, y2) :: p3 := by simp
        rw [this, w2.2]; simp
  have hc1 : c1 = c := by
    have hk3 : Responds y2.input b := by
      obtain ⟨resp, body, rest, v1, v2, v3, _⟩ := k3
      exact ⟨resp, body, v1, v2, v3⟩
    obtain ⟨e', x, he', hx'⟩ := hown (p1 ++ (c1, y1) :: p2) c2 y2 (p3 ++ (c, e) :: post) (by rw [hl]; simp) b hk3
    rw [hc2] at he'
    obtain ⟨u, v, huv⟩ := List.append_of_mem he'
    by_contra hne
    rcases List.append_eq_append_iff.1 (show u ++ (c, e') :: v = p1 ++ (c1, y1) :: p2 by
      rw [← huv]) with ⟨w, w1, w2⟩ | ⟨w, w1, w2⟩
    · cases w with
      | nil => simp only [List.nil_append, List.cons.injEq, Prod.mk.injEq] at w2; exact hne w2.1.1.symm
      | cons z w =>
        simp only [List.cons_append, List.cons.injEq] at w2
        refine hH.request_unique hs (p := u.map (·.2)) (e := e') (q := w.map (·.2)) (e' := y1)
          (r := (p2 ++ (c2, y2) :: p3).map (·.2) ++ e :: post.map (·.2)) ?_ hx' k2
        rw [hl]
        have : p1 ++ (c1, y1) :: (p2 ++ (c2, y2) :: p3) = (p1 ++ (c1, y1) :: p2) ++ (c2, y2) :: p3 := by simp
        rw [this, huv, w2.2]; simp
    · cases w with
      | nil => simp only [List.nil_append, List.cons.injEq, Prod.mk.injEq] at w2; exact hne w2.1.1
      | cons z w =>
        simp only [List.cons_append, List.cons.injEq] at w2
        refine hH.request_unique hs (p := p1.map (·.2)) (e := y1) (q := w.map (·.2)) (e' := e')
          (r := v.map (·.2) ++ (y2 :: p3.map (·.2)) ++ e :: post.map (·.2)) ?_ k2 hx'
        rw [hl, w2.2]; simp
  subst hc1 hc2
  refine ⟨p1, y1, _, rfl, k1, ⟨b, k2⟩, fun hsame => ?_⟩
  -- the stored response is that of an initialisation from y1 on
  obtain ⟨resp, body, x1, x2, x3⟩ := hresp
  obtain ⟨rr, hi, w1, w2⟩ := response_is_init hI x1 x2 h2.symm hr
  have hsrc : ∃ x ∈ (c2, y1) :: (p2 ++ (c2, y2) :: p3), ∃ req bd ids, IsRequest x.2.input req bd ∧
      req.action = "internal:discovery/extensions" ∧ IsInitResponse env rr req ids := by
    obtain ⟨s2, j1, j2⟩ := h1.split (l1 := p1.map (·.2)) (l2 := y1 :: (p2 ++ (c2, y2) :: p3).map (·.2)) (by simp)
    obtain ⟨s3, ch3, j3, j4, j5⟩ := j2.first
    rcases j5.init_or hi with g | ⟨e0, he0, g⟩
    · obtain ⟨o1, _, _, o2, _⟩ := k2
      rw [o2] at j4
      obtain ⟨r0, req, bd, ids, z1, z2, z3, z4⟩ := init_stored k1 j4.symm
      rw [g] at z1
      cases z1
      exact ⟨(c2, y1), by simp, req, bd, ids, z2, z3, z4⟩
    · obtain ⟨x, hx, rfl⟩ := List.mem_map.1 he0
      exact ⟨x, List.mem_cons_of_mem _ hx, g⟩
  obtain ⟨⟨d, e0⟩, he0, req, bd, ids, z1, z2, z3⟩ := hsrc
  have hd : d = c2 := by
    rcases List.mem_cons.1 he0 with g | g
    · cases g; rfl
    · exact hsame _ g ⟨req, bd, z1, z2⟩
  subst hd
  have hrep := (response_on_wire ch.ho z3 (parsesAsRequest_ok z1.1).2.2 w1).2
  have w2' : (rr.toOutboundMessage.writeTo ch.ho).out = out := w2
  rw [w2'] at hrep
  have hch : chosenId (some req.tcp_header.request_id) ids = req.tcp_header.request_id := by
    have := hid (d, e0) (by rw [hl]; exact List.mem_append_left _ (List.mem_append_right _ he0)) req bd z1
    unfold chosenId; simp [this]
  rw [hch] at hrep
  exact ⟨e0, he0, req, bd, z1, z2, _, hrep⟩

/-! ## Two peers that initialise the extension at the same time -/

/-- The initialise-extension frame of a second peer. -/
def sampleInitFrame2 : Bytes := sampleFrame sampleInit.writeTo "internal:discovery/extensions" 12

/-- Peer 0 initialises the extension, peer 1 does so too, then peer 0 answers the two requests it gets. -/
def crossedRun : List (Event Nat) :=
  [.accept 0, .accept 1, .recv 0 sampleChoice sampleInitFrame, .sent 0 144, .recv 1 sampleChoice sampleInitFrame2,
   .sent 1 144, .recv 0 sampleChoice (sampleAck true 3), .sent 0 108, .recv 0 sampleChoice (sampleSettingsFrame 2)]


/-- A response to a registration that makes the host send something makes it send the settings request, whose id is the one
before. -/
theorem ack_sends {env : Ext σ H} {ch : Choice} {s : Host σ} {raw : Bytes} {k : Int} {n : OutboundRequest}
    (hI : Inv env s) (hr : Responds raw k) (hg : s.pending.get? k = some (.registerRest n))
    (ho : ((onInput env ch s raw).2.toOption.join).isSome) :
    (⟨raw, (onInput env ch s raw).2⟩ : Exchange).SendsRequest (k - 1) "internal:discovery/enviornmentsettings" := by
  obtain ⟨out, ho⟩ := some_of_isSome ho
  have hx : onInput env ch s raw = ((onInput env ch s raw).1, .ok (some out)) := Prod.ext rfl ho
  rcases outputs_cases env ch s hI raw out _ hx with
    ⟨r, b, _, h1, h2, _⟩ | ⟨⟨r, b, h1, _⟩, _⟩ | ⟨_, q, b, _, _, h1, h2, _⟩ | ⟨_, r, b, _, _, h1, _⟩
  · obtain ⟨r', b', g1, g2⟩ := hr
    exact (h1.not_response g1).elim
  · obtain ⟨r', b', g1, g2⟩ := hr
    exact (h1.not_response g1).elim
  · rcases onInput_sends_request hI hx h1 with ⟨⟨r, b, g1, _⟩, _⟩ | ⟨k', n', hk, g1, g2, _⟩
    · obtain ⟨r', b', g1', _⟩ := hr
      exact (g1.not_response g1').elim
    · have e := responds_unique hk hr
      obtain ⟨_, _, j, _, _, ej, hn⟩ := hI.reg k' n' (Dict.get?_mem g1)
      have en : n'.tcp_header.request_id = (j : Int) := requestNew_id hn
      exact ⟨out, q, b, ho, h1, by omega, h2⟩
  · obtain ⟨r', b', g1, g2, g3⟩ := hr
    have := settings_of_response hI g1 g2 ho h1
    rw [g3, hg] at this
    cases this

theorem sampleInitFrame2_ok : RequestFrame sampleInitFrame2 sampleCtx ["f"] sampleInit.writeTo
    "internal:discovery/extensions" 12 false false :=
  ⟨sampleOrder, Version.new 2070099, 0, 0, _, rfl, rfl, by decide +kernel, by decide +kernel, by decide +kernel,
    by decide +kernel, by decide +kernel, by decide +kernel⟩

/-- The host after both initialise-extension requests, and after the acknowledgement. -/
def crossed2 : Host Nat := (onInput sampleExt sampleChoice sampleInited sampleInitFrame2).1
def crossed3 : Host Nat := (onInput sampleExt sampleChoice crossed2 (sampleAck true 3)).1

def crossedEvent2 : Exchange := ⟨sampleInitFrame2, (onInput sampleExt sampleChoice sampleInited sampleInitFrame2).2⟩
def crossedEvent3 : Exchange := ⟨sampleAck true 3, (onInput sampleExt sampleChoice crossed2 (sampleAck true 3)).2⟩
def crossedEvent4 : Exchange := ⟨sampleSettingsFrame 2, (onInput sampleExt sampleChoice crossed3 (sampleSettingsFrame 2)).2⟩

theorem crossed_exchanges : exchanges sampleExt sampleHost crossedRun =
    [(0, sampleEvent1), (1, crossedEvent2), (0, crossedEvent3), (0, crossedEvent4)] := by
  unfold crossedRun sampleEvent1 crossedEvent2 crossedEvent3 crossedEvent4 crossed3 crossed2 sampleInited
  simp only [exchanges]

theorem crossed2_reachable : Reachable sampleExt crossed2 :=
  sampleInited_reachable.evolves (.input sampleChoice sampleInitFrame2 .refl trivial : Evolves _ (fun _ => True) _ _)

theorem crossed3_reachable : Reachable sampleExt crossed3 :=
  crossed2_reachable.evolves (.input sampleChoice _ .refl trivial : Evolves _ (fun _ => True) _ _)

theorem crossed2_pending : ∃ n, crossed2.pending.get? 3 = some (.registerRest n) := by
  have h : (match crossed2.pending.get? 3 with | some (.registerRest _) => true | _ => false) = true := by decide +kernel
  generalize crossed2.pending.get? 3 = o at h
  cases o with
  | none => simp at h
  | some p => cases p with
    | settings => simp at h
    | registerRest n => exact ⟨n, rfl⟩

theorem crossedEvent3_sends : crossedEvent3.SendsRequest 2 "internal:discovery/enviornmentsettings" := by
  obtain ⟨n, hn⟩ := crossed2_pending
  exact ack_sends crossed2_reachable.inv (responseFrame_responds (sampleAck_ok true)) hn (by decide +kernel)

theorem crossedInit2 : ∃ req body, IsRequest sampleInitFrame2 req body ∧ req.tcp_header.request_id = 12 ∧
    req.action = "internal:discovery/extensions" := by
  obtain ⟨_, _, req, q1, _, q3, _, _, _, _, _, _, q10⟩ := frame_parses sampleInitFrame2_ok []
  rw [List.append_nil] at q1
  exact ⟨req, _, q1, q3, q10⟩

theorem crossedInit1 : ∃ req body, IsRequest sampleInitFrame req body ∧ req.tcp_header.request_id = 11 := by
  obtain ⟨_, _, req, q1, _, q3, _, _, _, _, _, _, q10⟩ := frame_parses sampleInitFrame_ok []
  rw [List.append_nil] at q1
  exact ⟨req, _, q1, q3⟩

theorem crossedEvent2_input : crossedEvent2.input = sampleInitFrame2 := by unfold crossedEvent2; dsimp only
theorem crossedEvent3_input : crossedEvent3.input = sampleAck true 3 := by unfold crossedEvent3; dsimp only
theorem crossedEvent4_input : crossedEvent4.input = sampleSettingsFrame 2 := by unfold crossedEvent4; dsimp only
theorem crossedEvent4_output :
    crossedEvent4.output = (onInput sampleExt sampleChoice crossed3 (sampleSettingsFrame 2)).2 := by
  unfold crossedEvent4; dsimp only

theorem crossed_own : OwnAnswers (exchanges sampleExt sampleHost crossedRun) := by
  rw [crossed_exchanges]
  intro pre c e post hl id hid
  match pre, hl with
  | [], hl =>
    simp only [List.nil_append, List.cons.injEq, Prod.mk.injEq] at hl
    rw [← hl.1.2, sampleEvent1_input] at hid
    exact (sampleInit_not_response hid).elim
  | [x], hl =>
    simp only [List.cons_append, List.nil_append, List.cons.injEq, Prod.mk.injEq] at hl
    rw [← hl.2.1.2, crossedEvent2_input] at hid
    obtain ⟨_, _, h, _⟩ := hid
    obtain ⟨_, _, g, _⟩ := crossedInit2
    exact (g.not_response h).elim
  | [x, y], hl =>
    simp only [List.cons_append, List.nil_append, List.cons.injEq, Prod.mk.injEq] at hl
    rw [← hl.2.2.1.2, crossedEvent3_input] at hid
    refine ⟨sampleEvent1, "internal:discovery/registerrestactions", ?_, ?_⟩
    · rw [← hl.1, ← hl.2.2.1.1]; simp
    · rw [responds_unique hid (responseFrame_responds (sampleAck_ok true))]
      exact sampleEvent1_sends
  | [x, y, z], hl =>
    simp only [List.cons_append, List.nil_append, List.cons.injEq, Prod.mk.injEq] at hl
    rw [← hl.2.2.2.1.2, crossedEvent4_input] at hid
    refine ⟨crossedEvent3, "internal:discovery/enviornmentsettings", ?_, ?_⟩
    · rw [← hl.2.2.1, ← hl.2.2.2.1.1]; simp
    · rw [responds_unique hid (responseFrame_responds sampleSettingsFrame_ok)]
      exact crossedEvent3_sends
  | x :: y :: z :: v :: w, hl =>
    have := congrArg List.length hl
    simp at this

/-- C93 is violated although all peers behave: peer 1 asks for an initialisation while that of peer 0 is in progress; when
peer 0 answers the settings request it was sent, the host sends it the initialise response that answers the request of peer 1;
it answers nothing peer 0 ever asked. -/
theorem C93_violated : ∃ (es : List (Event Nat)) (S : Server Nat) (pre : List (Nat × Exchange)) (e : Exchange) (out : Bytes),
    (Server.start sampleHost).run sampleExt es = some S ∧ Started sampleHost ∧ OwnAnswers (exchanges sampleExt sampleHost es) ∧
    exchanges sampleExt sampleHost es = pre ++ [(0, e)] ∧ e.output = .ok (some out) ∧
    (∃ e1 req body b, (1, e1) ∈ pre ∧ IsRequest e1.input req body ∧ Answers out req b) ∧
    ∀ e0, (0, e0) ∈ pre ++ [(0, e)] → ∀ req body, IsRequest e0.input req body → ∀ b, ¬ Answers out req b := by
  obtain ⟨S, hS⟩ : ∃ S, (Server.start sampleHost).run sampleExt crossedRun = some S :=
    Option.isSome_iff_exists.1 (by decide +kernel)
  obtain ⟨out, ho⟩ := some_of_isSome
    (show ((onInput sampleExt sampleChoice crossed3 (sampleSettingsFrame 2)).2.toOption.join).isSome by decide +kernel)
  obtain ⟨o2, ho2⟩ := some_of_isSome
    (show ((onInput sampleExt sampleChoice sampleInited sampleInitFrame2).2.toOption.join).isSome by decide +kernel)
  obtain ⟨req2, b2, r1, r2, r3⟩ := crossedInit2
  obtain ⟨req1, b1, t1, t2⟩ := crossedInit1
  obtain ⟨r, req, body, ids, z1, z2, z3, z4⟩ := init_stored ⟨req2, b2, r1, r3⟩ ho2
  obtain ⟨rfl, _⟩ := z2.unique r1
  -- what is sent is a response
  have hresp := responseFrame_responds sampleSettingsFrame_ok
  have hI := crossed3_reachable.inv
  have hx : onInput sampleExt sampleChoice crossed3 (sampleSettingsFrame 2) =
      ((onInput sampleExt sampleChoice crossed3 (sampleSettingsFrame 2)).1, .ok (some out)) := by
    rw [← ho, Prod.mk.eta]
  obtain ⟨resp, bd, x1, x2, x3⟩ := hresp
  have hout : ∃ rr rb, IsResponse out rr rb := by
    rcases outputs_cases sampleExt sampleChoice crossed3 hI _ out _ hx with
      ⟨_, b, _, h1, h2, _⟩ | ⟨⟨_, b, h1, _⟩, _⟩ | ⟨k, q, b, hk, _, h1, h2, _⟩ | ⟨_, r, b, _, _, h1, _⟩
    · exact (h1.not_response x1).elim
    · exact (h1.not_response x1).elim
    · exfalso
      rcases onInput_sends_request hI hx h1 with ⟨⟨_, b, g1, _⟩, _⟩ | ⟨k', n', hk, g1, g2, _⟩
      · exact (g1.not_response x1).elim
      · have e := responds_unique hk ⟨resp, bd, x1, x2, x3⟩
        rw [e] at g1
        have : (match crossed3.pending.get? 2 with | some (.registerRest _) => true | _ => false) = false := by decide +kernel
        rw [g1] at this
        simp at this
    · exact ⟨r, b, h1⟩
  obtain ⟨rr, rb, hrr⟩ := hout
  obtain ⟨r', hi, w1, w2⟩ := response_is_init hI x1 x2 ho hrr
  have hsame : r' = r := by
    have h3 : History sampleExt crossed2 [crossedEvent3] crossed3 := .input sampleChoice _ .start
    rcases h3.init_or hi with g | ⟨e, he, q, bq, _, g, _⟩
    · unfold crossed2 at g
      rw [z1] at g
      cases g; rfl
    · rw [List.mem_singleton.1 he, crossedEvent3_input] at g
      obtain ⟨_, _, y1, _⟩ := responseFrame_responds (sampleAck_ok true)
      exact (g.not_response y1).elim
  subst hsame
  have hrep := (response_on_wire sampleChoice.ho z4 (parsesAsRequest_ok z2.1).2.2 w1).2
  have w2' : (r'.toOutboundMessage.writeTo sampleChoice.ho).out = out := w2
  rw [w2'] at hrep
  have hch : chosenId (some req.tcp_header.request_id) ids = req.tcp_header.request_id := by
    unfold chosenId; simp [r2]
  rw [hch] at hrep
  refine ⟨crossedRun, S, [(0, sampleEvent1), (1, crossedEvent2), (0, crossedEvent3)], crossedEvent4, out, hS,
    sampleHost_started, crossed_own, crossed_exchanges,
    crossedEvent4_output.trans ho, ⟨crossedEvent2, req, body, _, by simp, by rw [crossedEvent2_input]; exact z2, hrep⟩, ?_⟩
  intro e0 he0 q bq hq b hb
  have hne : q.tcp_header.request_id = 12 := by
    have := (ReplyIs.unique hb hrep).1
    rw [this, r2]
  simp only [List.cons_append, List.nil_append, List.mem_cons, Prod.mk.injEq, List.not_mem_nil, or_false, true_and] at he0
  rcases he0 with rfl | ⟨h, _⟩ | rfl | rfl
  · rw [sampleEvent1_input] at hq
    obtain ⟨rfl, _⟩ := t1.unique hq
    omega
  · simp at h
  · obtain ⟨_, _, y1, _⟩ := responseFrame_responds (sampleAck_ok true)
    rw [crossedEvent3_input] at hq
    exact hq.not_response y1
  · rw [crossedEvent4_input] at hq
    exact hq.not_response x1

/-- A peer initialises the extension, and nobody interferes. -/
def straightRun : List (Event Nat) :=
  [.accept 0, .recv 0 sampleChoice sampleInitFrame, .sent 0 144, .recv 0 sampleChoice (sampleAck true 3), .sent 0 108,
   .recv 0 sampleChoice (sampleSettingsFrame 2)]

theorem straight_exchanges : exchanges sampleExt sampleHost straightRun =
    [(0, sampleEvent1), (0, sampleEvent2), (0, sampleEvent3)] := by
  unfold straightRun sampleEvent1 sampleEvent2 sampleEvent3 sampleAcked sampleInited
  simp only [exchanges]

/-- The peer of that run answers only what it was asked. -/
theorem straight_own : OwnAnswers (exchanges sampleExt sampleHost straightRun) := by
  rw [straight_exchanges]
  intro pre c e post hl id hid
  have h0 : ∀ x ∈ pre ++ (c, e) :: post, x.1 = 0 := by
    rw [← hl]; intro x hx
    simp only [List.mem_cons, List.not_mem_nil, or_false] at hx
    rcases hx with rfl | rfl | rfl <;> rfl
  obtain ⟨e', he', a, ha⟩ := samplePolite (pre.map (·.2)) e (post.map (·.2))
    (by have := congrArg (List.map (·.2)) hl; simpa using this) id hid
  obtain ⟨⟨d, y⟩, hy, rfl⟩ := List.mem_map.1 he'
  have h1 := h0 (d, y) (List.mem_append_left _ hy)
  have h2 := h0 (c, e) (by simp)
  simp only at h1 h2
  subst h1 h2
  exact ⟨y, a, hy, ha⟩

theorem initFrame_id {req : OutboundRequest} {body : Bytes} (h : IsRequest sampleInitFrame req body) :
    req.tcp_header.request_id = 11 := by
  obtain ⟨_, _, q, q1, _, q3, _⟩ := frame_parses sampleInitFrame_ok []
  rw [List.append_nil] at q1
  obtain ⟨rfl, _⟩ := h.unique q1
  exact q3


/-- C93: that run meets the hypotheses of C93_partial, for its last event, which sends a response. -/
example : ((Server.start sampleHost).run sampleExt straightRun).isSome ∧ Started sampleHost ∧
    (∀ x ∈ exchanges sampleExt sampleHost straightRun, ∀ req body, IsRequest x.2.input req body →
      req.tcp_header.request_id ≠ 0) ∧
    OwnAnswers (exchanges sampleExt sampleHost straightRun) ∧
    exchanges sampleExt sampleHost straightRun = [(0, sampleEvent1), (0, sampleEvent2)] ++ (0, sampleEvent3) :: [] ∧
    (sampleEvent3.output.toOption.join).isSome := by
  refine ⟨by decide +kernel, sampleHost_started, ?_, straight_own, straight_exchanges, by decide +kernel⟩
  rw [straight_exchanges]
  intro x hx req body h
  simp only [List.mem_cons, List.not_mem_nil, or_false] at hx
  rcases hx with rfl | rfl | rfl
  · simp only at h
    rw [sampleEvent1_input] at h
    have := initFrame_id h
    omega
  · simp only at h
    rw [sampleEvent2_input] at h
    obtain ⟨_, _, y1, _⟩ := responseFrame_responds (sampleAck_ok true)
    exact (h.not_response y1).elim
  · simp only at h
    rw [sampleEvent3_input] at h
    obtain ⟨_, _, y1, _⟩ := responseFrame_responds sampleSettingsFrame_ok
    exact (h.not_response y1).elim

def straightServer : Server Nat := ((Server.start sampleHost).run sampleExt straightRun).get (by decide +kernel)
theorem straight_runs : (Server.start sampleHost).run sampleExt straightRun = some straightServer := (Option.some_get _).symm
example := C93_partial sampleExt straight_runs sampleHost_started
  (fun x hx => sampleIds x.2 (by
    rw [straight_exchanges] at hx
    change x ∈ [_, _, _] at hx
    simp only [List.mem_cons, List.not_mem_nil, or_false] at hx ⊢
    rcases hx with rfl | rfl | rfl <;> simp))
  straight_own [(0, sampleEvent1), (0, sampleEvent2)] [] 0 sampleEvent3 straight_exchanges _ sampleEvent3_output _ _
  sampleFinal_isResponse

end Verif
