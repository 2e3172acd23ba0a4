import Verif.Spec.Process
import Verif.Props.Pending
import Verif.Lemmas.Sample
/-!
# C122: several hosts in one process, and `serve` at any time
-/

namespace Verif
open Py

variable {σ H : Type}

theorem acts_append (envs : Nat → Ext σ H) (p : Process σ) (l l' : List (Act σ)) :
    p.acts envs (l ++ l') = (p.acts envs l).acts envs l' := by
  unfold Process.acts; rw [List.foldl_append]

/-- What one act does to the attributes of a host. -/
theorem act_hosts (envs : Nat → Ext σ H) (p : Process σ) (a : Act σ) (h : Nat) :
    (∀ e, a = .serve h e → (p.act envs a).hosts h = some { extension := e }) ∧
    (∀ ch raw x, a = .input h ch raw → p.hosts h = some x → ∃ s, p.host h = some s ∧
      (p.act envs a).host h = some (onInput (envs x.extension) ch s raw).1 ∧
      (p.act envs a).serving h = some x.extension) ∧
    ((∀ e, a ≠ .serve h e) → (∀ ch raw, a ≠ .input h ch raw) → (p.act envs a).hosts h = p.hosts h) ∧
    (∀ ch raw, a = .input h ch raw → p.hosts h = none → (p.act envs a).hosts h = none) := by
  refine ⟨?_, ?_, ?_, ?_⟩
  · rintro e rfl
    simp [Process.act, Process.serve]
  · rintro ch raw x rfl hx
    refine ⟨{ ids := p.ids, pending := x.pending, init := x.init, settings := p.settings, ext := p.states x.extension }, ?_, ?_, ?_⟩
    · simp [Process.host, hx]
    · simp [Process.act, Process.input, Process.host, hx]
    · simp [Process.act, Process.input, Process.serving, hx]
  · intro h1 h2
    cases a with
    | serve h' e =>
      have : h ≠ h' := by rintro rfl; exact h1 e rfl
      simp [Process.act, Process.serve, this]
    | input h' ch raw =>
      have : h ≠ h' := by rintro rfl; exact h2 ch raw rfl
      cases hx : p.hosts h' <;> simp [Process.act, Process.input, hx, this]
    | other n d x => rfl
  · rintro ch raw rfl hx
    simp [Process.act, Process.input, hx]

theorem unserved_request {ids : Nat} {raw : Bytes} {req : OutboundRequest} {body : Bytes} (h : IsRequest raw req body) :
    unservedInput ids raw = (ids + 2, .error .attribute) := by
  obtain ⟨bl, hd, rest, h1, h2, h3⟩ := (parsesAsRequest_iff (ids + 1)).1 h.1
  obtain ⟨e, _⟩ := request_readFrom_ok h3
  have hq := h.2
  rw [e] at hq
  have e0 : (TcpHeader.new (.int Version.CURRENT) 0 none ids).2 = ids + 1 := rfl
  unfold unservedInput
  simp only [h2, e0, hq, if_true, h1, h3]

theorem unserved_response {ids : Nat} {raw : Bytes} {resp : OutboundResponse} {body : Bytes} (h : IsResponse raw resp body) :
    unservedInput ids raw = (ids + 2, if resp.tcp_header.isError then .ok none else .error .attribute) := by
  obtain ⟨bl, hd, rest, h1, h2, h3⟩ := (parsesAsResponse_iff (ids + 1)).1 h.1
  obtain ⟨e, _⟩ := response_readFrom_ok h3
  have hq := h.2
  rw [e] at hq
  have hq' : hd.isRequest = false := by unfold TcpHeader.isRequest; rw [hq]; rfl
  have e0 : (TcpHeader.new (.int Version.CURRENT) 0 none ids).2 = ids + 1 := rfl
  unfold unservedInput
  simp only [h2, e0, hq', Bool.false_eq_true, if_false, h1, h3]
  split <;> rfl

theorem unserved_cases (ids : Nat) (raw : Bytes) :
    (∃ req body, IsRequest raw req body) ∨ (∃ resp body, IsResponse raw resp body) ∨
    ∃ n e, unservedInput ids raw = (ids + n, .error e) := by
  have e0 : (TcpHeader.new (.int Version.CURRENT) 0 none ids).2 = ids + 1 := rfl
  cases hh : TcpHeader.readFrom raw with
  | error e =>
    refine .inr (.inr ⟨1, e, ?_⟩)
    unfold unservedInput; simp only [hh, e0]
  | ok p =>
    obtain ⟨h, input⟩ := p
    cases hq : h.isRequest with
    | true =>
      obtain ⟨bl, hb, _⟩ := blankRequest_new (ids + 1)
      cases hr : bl.readFrom (some h) input with
      | error e =>
        refine .inr (.inr ⟨2, e, ?_⟩)
        unfold unservedInput; simp only [hh, e0, hq, if_true, hb, hr]
      | ok p =>
        obtain ⟨req, body⟩ := p
        have hp := (parsesAsRequest_iff (ids + 1)).2 ⟨bl, h, input, hb, hh, hr⟩
        exact .inl ⟨req, body, hp, by rw [(request_readFrom_ok hr).1]; exact hq⟩
    | false =>
      obtain ⟨bl, hb, _⟩ := blankResponse_new (ids + 1)
      cases hr : bl.readFrom (some h) input with
      | error e =>
        refine .inr (.inr ⟨2, e, ?_⟩)
        unfold unservedInput; simp only [hh, e0, hq, Bool.false_eq_true, if_false, hb, hr]
      | ok p =>
        obtain ⟨resp, body⟩ := p
        have hp := (parsesAsResponse_iff (ids + 1)).2 ⟨bl, h, input, hb, hh, hr⟩
        refine .inr (.inl ⟨resp, body, hp, ?_⟩)
        rw [(response_readFrom_ok hr).1]
        unfold TcpHeader.isRequest at hq
        cases hc : h.isResponse with
        | true => rfl
        | false => rw [hc] at hq; cases hq

theorem unservedInput_ids (ids : Nat) (raw : Bytes) : ids ≤ (unservedInput ids raw).1 := by
  rcases unserved_cases ids raw with ⟨req, body, h⟩ | ⟨resp, body, h⟩ | ⟨n, e, h⟩
  · rw [unserved_request h]; exact Nat.le_add_right _ _
  · rw [unserved_response h]; exact Nat.le_add_right _ _
  · rw [h]; exact Nat.le_add_right _ _

theorem act_ids (envs : Nat → Ext σ H) (p : Process σ) (a : Act σ) : p.ids ≤ (p.act envs a).ids := by
  cases a with
  | serve h e => exact Nat.le_refl _
  | other n d x => exact Nat.le_add_right _ _
  | input h ch raw =>
    cases hx : p.hosts h with
    | none => simp only [Process.act, Process.input, hx]; exact unservedInput_ids _ _
    | some x =>
      simp only [Process.act, Process.input, hx]
      exact onInput_ids (envs x.extension) ch
        { ids := p.ids, pending := x.pending, init := x.init, settings := p.settings, ext := p.states x.extension } raw

theorem host_of_hosts {p q : Process σ} {h : Nat} {s : Host σ} (hh : q.hosts h = p.hosts h) (hs : p.host h = some s) :
    ∃ x, q.host h = some { s with ids := q.ids, settings := q.settings, ext := x } := by
  unfold Process.host at *
  rw [hh]
  cases hp : p.hosts h with
  | none => rw [hp] at hs; cases hs
  | some a =>
    rw [hp] at hs
    cases hs
    exact ⟨q.states a.extension, rfl⟩

/-- One act, as a host sees it that is not served by it. -/
theorem act_evolves (envs : Nat → Ext σ H) (p : Process σ) (a : Act σ) (h e : Nat) (s : Host σ) (hs : p.host h = some s)
    (he : p.serving h = some e) (hn : ∀ e, a ≠ .serve h e) :
    (p.act envs a).serving h = some e ∧ ∃ s', (p.act envs a).host h = some s' ∧
      Evolves (envs e) (fun raw => ∃ ch, a = .input h ch raw) s s' := by
  obtain ⟨-, k2, k3, -⟩ := act_hosts envs p a h
  cases hx : p.hosts h with
  | none => unfold Process.serving at he; rw [hx] at he; cases he
  | some x =>
    have hxe : x.extension = e := by unfold Process.serving at he; rw [hx] at he; cases he; rfl
    by_cases hi : ∃ ch raw, a = .input h ch raw
    · obtain ⟨ch, raw, rfl⟩ := hi
      obtain ⟨s0, h0, h1, h2⟩ := k2 ch raw x rfl hx
      rw [hs] at h0
      cases h0
      rw [hxe] at h1 h2
      exact ⟨h2, _, h1, .input ch raw .refl ⟨ch, rfl⟩⟩
    · have hk := k3 hn (fun ch raw hc => hi ⟨ch, raw, hc⟩)
      obtain ⟨y, hy⟩ := host_of_hosts hk hs
      refine ⟨by unfold Process.serving; rw [hk, hx]; exact congrArg some hxe, _, hy, .other _ _ _ .refl ?_⟩
      have : s.ids = p.ids := by unfold Process.host at hs; rw [hx] at hs; cases hs; rfl
      rw [this]
      exact act_ids envs p a

/-- C122: as long as `serve` is not called on a host again, it serves the same extension, and whatever the rest of the process does -
other hosts and their peers, calls of `serve` on them - to this host it is only other activity (as in the histories of a single host:
ids are used up, settings and the extension's own state may change): the only inputs in its history are those that arrive at it. -/
theorem C122_alone (envs : Nat → Ext σ H) (p : Process σ) (l : List (Act σ)) (h e : Nat) (s : Host σ) (hs : p.host h = some s)
    (he : p.serving h = some e) (hn : NotServed h l) :
    (p.acts envs l).serving h = some e ∧ ∃ s', (p.acts envs l).host h = some s' ∧ Evolves (envs e) (Arrives h l) s s' := by
  induction l generalizing p s with
  | nil => exact ⟨he, s, hs, .refl⟩
  | cons a l ih =>
    obtain ⟨h1, s1, h2, h3⟩ := act_evolves envs p a h e s hs he (fun e' hc => hn e' (by rw [hc]; exact List.mem_cons_self))
    obtain ⟨h4, s2, h5, h6⟩ := ih (p.act envs a) s1 h2 h1 (fun e' hc => hn e' (List.mem_cons_of_mem _ hc))
    refine ⟨h4, s2, h5, (h3.mono ?_).trans (h6.mono ?_)⟩
    · rintro raw ⟨ch, rfl⟩; exact ⟨ch, List.mem_cons_self⟩
    · rintro raw ⟨ch, hm⟩; exact ⟨ch, List.mem_cons_of_mem _ hm⟩

/-- C122: what a host answers, and what it is afterwards, is what the one host of a process answers and is that serves only this extension,
from the same state; no other host is changed, and no extension that it does not serve. -/
theorem C122_input (envs : Nat → Ext σ H) (p : Process σ) (h e : Nat) (s : Host σ) (hs : p.host h = some s) (he : p.serving h = some e)
    (ch : Choice) (raw : Bytes) :
    (p.input envs h ch raw).2 = (onInput (envs e) ch s raw).2 ∧
    (p.input envs h ch raw).1.host h = some (onInput (envs e) ch s raw).1 ∧ (p.input envs h ch raw).1.serving h = some e ∧
    (∀ h', h' ≠ h → (p.input envs h ch raw).1.hosts h' = p.hosts h') ∧
    ∀ e', e' ≠ e → (p.input envs h ch raw).1.states e' = p.states e' := by
  unfold Process.host Process.serving at *
  cases hx : p.hosts h with
  | none => rw [hx] at he; cases he
  | some a =>
    rw [hx] at he hs
    cases he
    cases hs
    simp only [Process.input, hx]
    refine ⟨trivial, by simp, by simp, fun h' hne => by rw [if_neg hne], fun e' hne => by rw [if_neg hne]⟩

/-- C122: `serve` makes a host a newly started one for that extension, whatever it was before, and changes no other host. -/
theorem C122_serve (p : Process σ) (h e : Nat) :
    (p.serve h e).serving h = some e ∧ (∃ s, (p.serve h e).host h = some s ∧ Started s ∧ s.ext = p.states e) ∧
    ∀ h', h' ≠ h → (p.serve h e).serving h' = p.serving h' ∧ (p.serve h e).host h' = p.host h' := by
  refine ⟨by simp [Process.serve, Process.serving], ⟨{ ids := p.ids, settings := p.settings, ext := p.states e }, ?_, ⟨rfl, rfl⟩, rfl⟩, ?_⟩
  · simp [Process.serve, Process.host]
  · intro h' hne
    simp [Process.serve, Process.host, Process.serving, hne]

theorem serving_none {p : Process σ} {h : Nat} : p.serving h = none ↔ p.hosts h = none := by
  unfold Process.serving; exact Option.map_eq_none_iff

theorem host_of_serving {p : Process σ} {h e : Nat} (he : p.serving h = some e) : ∃ s, p.host h = some s := by
  unfold Process.serving at he
  cases hx : p.hosts h with
  | none => rw [hx] at he; cases he
  | some a => exact ⟨_, by unfold Process.host; rw [hx]; rfl⟩

/-- C122: after any history a host serves the extension that `serve` was last called with on it. -/
theorem C122_last (envs : Nat → Ext σ H) (p : Process σ) (h : Nat) (hp : p.serving h = none) (l : List (Act σ)) :
    (p.acts envs l).serving h = lastServed h l := by
  have key : ∀ (l : List (Act σ)) (p : Process σ), (p.acts envs l).serving h = (lastServed h l).or (p.serving h) := by
    intro l
    induction l with
    | nil => intro p; rfl
    | cons a l ih =>
      intro p
      show ((p.act envs a).acts envs l).serving h = _
      rw [ih]
      have step : lastServed h (a :: l) = (lastServed h l).or (match a with | .serve h' e => if h' = h then some e else none | _ => none) := by
        cases a <;> simp [lastServed]
      rw [step, Option.or_assoc]
      congr 1
      obtain ⟨k1, k2, k3, k4⟩ := act_hosts envs p a h
      cases a with
      | serve h' e =>
        dsimp only
        by_cases hh : h' = h
        · subst hh
          simp [Process.serving, k1 e rfl]
        · rw [if_neg hh, Option.none_or]
          unfold Process.serving
          rw [k3 (fun e' hc => by cases hc; exact hh rfl) (fun ch raw hc => by cases hc)]
      | input h' ch raw =>
        dsimp only
        rw [Option.none_or]
        by_cases hh : h' = h
        · subst hh
          cases hx : p.hosts h' with
          | none => rw [serving_none.2 (k4 ch raw rfl hx), serving_none.2 hx]
          | some x =>
            obtain ⟨_, _, _, h2⟩ := k2 ch raw x rfl hx
            rw [h2]
            unfold Process.serving
            rw [hx]; rfl
        · unfold Process.serving
          rw [k3 (fun e' hc => by cases hc) (fun ch' raw' hc => by cases hc; exact hh rfl)]
      | other n d x => rfl
  rw [key, hp, Option.or_none]

/-- The last `serve` on a host splits a history. -/
theorem lastServed_split {h e : Nat} : ∀ {l : List (Act σ)}, lastServed h l = some e →
    ∃ l1 l2, l = l1 ++ .serve h e :: l2 ∧ NotServed h l2 := by
  intro l
  induction l with
  | nil => intro hl; cases hl
  | cons a l ih =>
    intro hl
    cases hr : lastServed h l with
    | some e' =>
      have : e' = e := by cases a <;> simp [lastServed, hr] at hl <;> exact hl
      subst this
      obtain ⟨l1, l2, h1, h2⟩ := ih hr
      exact ⟨a :: l1, l2, by rw [h1]; rfl, h2⟩
    | none =>
      cases a with
      | serve h' e' =>
        simp only [lastServed, hr, Option.none_or] at hl
        by_cases hh : h' = h
        · rw [if_pos hh] at hl
          cases hl
          subst hh
          refine ⟨[], l, rfl, fun e' hc => ?_⟩
          have : ∀ (l : List (Act σ)), lastServed h' l = none → Act.serve h' e' ∉ l := by
            intro l
            induction l with
            | nil => intro _ hm; cases hm
            | cons b l ih2 =>
              intro hb hm
              cases b with
              | serve h2 e2 =>
                simp only [lastServed, Option.or_eq_none_iff] at hb
                rcases List.mem_cons.1 hm with hm | hm
                · cases hm; simp at hb
                · exact ih2 hb.1 hm
              | input h2 c2 r2 =>
                rcases List.mem_cons.1 hm with hm | hm
                · cases hm
                · exact ih2 hb hm
              | other n d x =>
                rcases List.mem_cons.1 hm with hm | hm
                · cases hm
                · exact ih2 hb hm
          exact this l hr hc
        · rw [if_neg hh] at hl; cases hl
      | input h2 c2 r2 => simp only [lastServed] at hl; rw [hr] at hl; cases hl
      | other n d x => simp only [lastServed] at hl; rw [hr] at hl; cases hl

/-- C122: in a process with any number of hosts, every host that serves an extension is in a state that a host is in that serves only
this extension in a process of its own: what holds of the histories of one host holds of each. -/
theorem C122_reachable (envs : Nat → Ext σ H) (p : Process σ) (hp : Unserved p) (l : List (Act σ)) (h e : Nat)
    (he : (p.acts envs l).serving h = some e) : ∃ s, (p.acts envs l).host h = some s ∧ Reachable (envs e) s := by
  have h0 : p.serving h = none := serving_none.2 (hp h)
  rw [C122_last envs p h h0] at he
  obtain ⟨l1, l2, rfl, hn⟩ := lastServed_split he
  rw [acts_append]
  show ∃ s, (((p.acts envs l1).serve h e).acts envs l2).host h = some s ∧ _
  obtain ⟨a1, ⟨s, a2, a3, -⟩, -⟩ := C122_serve (p.acts envs l1) h e
  obtain ⟨-, s', a4, a5⟩ := C122_alone envs _ l2 h e s a2 a1 hn
  exact ⟨s', a4, s, a3, a5.mono fun _ _ => trivial⟩

/-- C122: a host of which `serve` was never called sends nothing, whatever arrives and whatever else happens in the process: `on_input`
raises (an `AttributeError` if the bytes are a request), except that an error response is taken without a word; no host and no extension
is changed. -/
theorem C122_unserved (envs : Nat → Ext σ H) (p : Process σ) (h : Nat) (hp : p.serving h = none) (l : List (Act σ)) (hn : NotServed h l)
    (ch : Choice) (raw : Bytes) :
    (∀ out, ((p.acts envs l).input envs h ch raw).2 = .ok out →
      out = none ∧ ∃ resp body, IsResponse raw resp body ∧ resp.tcp_header.isError = true) ∧
    (∀ req body, IsRequest raw req body → ((p.acts envs l).input envs h ch raw).2 = .error .attribute) ∧
    ∃ ids, ((p.acts envs l).input envs h ch raw).1 = { p.acts envs l with ids := ids } := by
  have hl : lastServed h l = none := by
    cases hr : lastServed h l with
    | none => rfl
    | some e =>
      obtain ⟨l1, l2, rfl, -⟩ := lastServed_split hr
      exact absurd (by simp) (hn e)
  have := C122_last envs p h hp l
  rw [hl] at this
  have hx := serving_none.1 this
  simp only [Process.input, hx]
  refine ⟨fun out ho => ?_, fun req body h => by rw [unserved_request h], _, rfl⟩
  rcases unserved_cases (p.acts envs l).ids raw with ⟨req, body, h⟩ | ⟨resp, body, h⟩ | ⟨n, e, h⟩
  · rw [unserved_request h] at ho; cases ho
  · rw [unserved_response h] at ho
    dsimp only at ho
    cases he : resp.tcp_header.isError with
    | true =>
      rw [he, if_pos rfl] at ho
      cases ho
      exact ⟨rfl, resp, body, h, he⟩
    | false => rw [he] at ho; cases ho
  · rw [h] at ho; cases ho

/-- Ids that hosts wait for were generated before; no two hosts wait for the same. -/
def Apart (p : Process σ) : Prop :=
  (∀ h x, p.hosts h = some x → x.pending.WF ∧ ∀ k ∈ x.pending.map (·.1), k < (p.ids : Int)) ∧
  ∀ h h' x x', h ≠ h' → p.hosts h = some x → p.hosts h' = some x' → ∀ k ∈ x.pending.map (·.1), k ∉ x'.pending.map (·.1)

/-- One input: what a host waits for afterwards, it waited for before, or the id is new. -/
theorem onInput_pending (env : Ext σ H) (ch : Choice) (s : Host σ) (raw : Bytes) (hw : s.pending.WF)
    (hr : ∀ k ∈ s.pending.map (·.1), k < (s.ids : Int)) :
    (onInput env ch s raw).1.pending.WF ∧ ∀ k ∈ (onInput env ch s raw).1.pending.map (·.1),
      k < ((onInput env ch s raw).1.ids : Int) ∧ (k ∈ s.pending.map (·.1) ∨ (s.ids : Int) ≤ k) := by
  rcases onInput_effect env ch s raw with ⟨h1, _, _, h4⟩ | ⟨resp, body, q, he, h1, _, h4⟩ |
    ⟨req, body, q, ha, i, sreq, response, hi, h1, hs, h2, _⟩
  · rw [h1]
    exact ⟨hw, fun k hk => ⟨by have := hr k hk; omega, .inl hk⟩⟩
  · rw [h1]
    have hsub := ((Dict.erase_sublist s.pending resp.tcp_header.request_id).map (·.1)).subset
    exact ⟨hw.erase _, fun k hk => ⟨by have := hr k (hsub hk); omega, .inl (hsub hk)⟩⟩
  · have hge := idsAfter_ge (some req.tcp_header.request_id) (s.ids + 2)
    have hi0 : (i : Int) ∉ s.pending.map (·.1) := fun hm => by have := hr _ hm; omega
    rw [h2]
    refine ⟨(hw.set _ _).set _ _, fun k hk => ?_⟩
    have hk : k ∈ s.pending.map (·.1) ∨ k = (i : Int) ∨ k = ((i + 1 : Nat) : Int) := by
      by_cases e1 : k = ((i + 1 : Nat) : Int)
      · exact .inr (.inr e1)
      by_cases e2 : k = (i : Int)
      · exact .inr (.inl e2)
      left
      have hg : ((s.pending.set (i : Int) Pending.settings).set ((i + 1 : Nat) : Int) (.registerRest sreq)).get? k = s.pending.get? k := by
        rw [Dict.get?_set, if_neg (Ne.symm e1), Dict.get?_set, if_neg (Ne.symm e2)]
      by_contra hc
      rw [Dict.get?_eq_none.2 hc] at hg
      exact Dict.get?_eq_none.1 hg hk
    rcases hk with hk | hk | hk
    · exact ⟨by have := hr k hk; omega, .inl hk⟩
    · exact ⟨by omega, .inr (by omega)⟩
    · exact ⟨by omega, .inr (by omega)⟩

theorem Apart.act {envs : Nat → Ext σ H} {p : Process σ} (hp : Apart p) (a : Act σ) : Apart (p.act envs a) := by
  have hids := act_ids envs p a
  cases a with
  | other n d x =>
    refine ⟨fun h x hx => ⟨(hp.1 h x hx).1, fun k hk => ?_⟩, hp.2⟩
    have := (hp.1 h x hx).2 k hk
    show k < ((p.ids + n : Nat) : Int)
    omega
  | serve h e =>
    constructor
    · intro i x hx
      simp only [Process.act, Process.serve] at hx
      by_cases hi : i = h
      · rw [if_pos hi] at hx; cases hx
        exact ⟨Dict.WF.nil, fun k hk => by simp at hk⟩
      · rw [if_neg hi] at hx; exact hp.1 i x hx
    · intro i j x y hne hx hy k hk
      simp only [Process.act, Process.serve] at hx hy
      by_cases hi : i = h
      · rw [if_pos hi] at hx; cases hx; simp at hk
      · rw [if_neg hi] at hx
        by_cases hj : j = h
        · rw [if_pos hj] at hy; cases hy; simp
        · rw [if_neg hj] at hy; exact hp.2 i j x y hne hx hy k hk
  | input h ch raw =>
    cases hx0 : p.hosts h with
    | none =>
      simp only [Process.act, Process.input, hx0] at hids ⊢
      refine ⟨fun i x hx => ⟨(hp.1 i x hx).1, fun k hk => ?_⟩, hp.2⟩
      have := (hp.1 i x hx).2 k hk
      show k < ((unservedInput p.ids raw).1 : Int)
      omega
    | some a =>
      have hs := onInput_pending (envs a.extension) ch
        { ids := p.ids, pending := a.pending, init := a.init, settings := p.settings, ext := p.states a.extension } raw
        (hp.1 h a hx0).1 (hp.1 h a hx0).2
      simp only [Process.act, Process.input, hx0] at hids ⊢
      generalize onInput (envs a.extension) ch _ raw = r at hs hids
      obtain ⟨s, r⟩ := r
      dsimp only at hs hids
      constructor
      · intro i x hx
        dsimp only at hx ⊢
        by_cases hi : i = h
        · rw [if_pos hi] at hx; cases hx
          exact ⟨hs.1, fun k hk => (hs.2 k hk).1⟩
        · rw [if_neg hi] at hx
          exact ⟨(hp.1 i x hx).1, fun k hk => by have := (hp.1 i x hx).2 k hk; omega⟩
      · intro i j x y hne hx hy k hk
        dsimp only at hx hy
        by_cases hi : i = h
        · rw [if_pos hi] at hx; cases hx
          have hj : j ≠ h := fun hj => hne (hi.trans hj.symm)
          rw [if_neg hj] at hy
          rcases (hs.2 k hk).2 with hm | hm
          · exact hp.2 h j a y (fun e => hj e.symm) hx0 hy k hm
          · intro hc
            have := (hp.1 j y hy).2 k hc
            omega
        · rw [if_neg hi] at hx
          by_cases hj : j = h
          · rw [if_pos hj] at hy; cases hy
            intro hc
            rcases (hs.2 k hc).2 with hm | hm
            · exact hp.2 i h x a hi hx hx0 k hk hm
            · have := (hp.1 i x hx).2 k hk
              omega
          · rw [if_neg hj] at hy
            exact hp.2 i j x y hne hx hy k hk

theorem Apart.acts {envs : Nat → Ext σ H} (l : List (Act σ)) : ∀ {p : Process σ}, Apart p → Apart (p.acts envs l) := by
  induction l with
  | nil => exact id
  | cons a l ih => exact fun hp => ih (hp.act a)

theorem Unserved.apart {p : Process σ} (hp : Unserved p) : Apart p :=
  ⟨fun h x hx => by (rw [hp h] at hx; cases hx), fun h h' x x' _ hx => by (rw [hp h] at hx; cases hx)⟩

theorem waits_iff {p : Process σ} {h : Nat} {k : Int} : p.Waits h k ↔ ∃ x, p.hosts h = some x ∧ k ∈ x.pending.map (·.1) := by
  unfold Process.Waits Process.host Outstanding
  constructor
  · rintro ⟨s, hs, hk⟩
    obtain ⟨x, hx, rfl⟩ := Option.map_eq_some_iff.1 hs
    exact ⟨x, hx, hk⟩
  · rintro ⟨x, hx, hk⟩
    exact ⟨_, by rw [hx]; rfl, hk⟩

/-- C122: no two hosts of a process ever wait for a response with the same id. -/
theorem C122_apart (envs : Nat → Ext σ H) (p : Process σ) (hp : Unserved p) (l : List (Act σ)) (h h' : Nat) (hne : h ≠ h') (k : Int)
    (hk : (p.acts envs l).Waits h k) : ¬ (p.acts envs l).Waits h' k := by
  have ha := hp.apart.acts (envs := envs) l
  rw [waits_iff] at *
  rintro ⟨x', hx', hk'⟩
  obtain ⟨x, hx, hk⟩ := hk
  exact ha.2 h h' x x' hne hx hx' k hk hk'

/-- An input of a response that the host does not wait for. -/
theorem input_unsolicited (envs : Nat → Ext σ H) (p : Process σ) (h e : Nat) (he : p.serving h = some e) (ch : Choice) {raw : Bytes}
    {resp : OutboundResponse} {body : Bytes} (hr : IsResponse raw resp body) (hw : ¬ p.Waits h resp.tcp_header.request_id) :
    (p.input envs h ch raw).2 = .ok none ∧ ∀ i, (p.input envs h ch raw).1.hosts i = p.hosts i := by
  rw [waits_iff] at hw
  unfold Process.serving at he
  cases hx : p.hosts h with
  | none => rw [hx] at he; cases he
  | some a =>
    have hu := C48_unsolicited (envs a.extension) ch
      { ids := p.ids, pending := a.pending, init := a.init, settings := p.settings, ext := p.states a.extension } hr
      (fun hm => hw ⟨a, hx, hm⟩)
    simp only [Process.input, hx, hu]
    refine ⟨trivial, fun i => ?_⟩
    by_cases hi : i = h
    · rw [if_pos hi, hi, hx]
    · rw [if_neg hi]

/-- C122: a response that arrives at a host other than the one that waits for it is ignored there, and the one that waits still does. -/
theorem C122_misdirected (envs : Nat → Ext σ H) (p : Process σ) (hp : Unserved p) (l : List (Act σ)) (h h' e : Nat) (hne : h ≠ h')
    (he : (p.acts envs l).serving h' = some e) {raw : Bytes} {resp : OutboundResponse} {body : Bytes} (hr : IsResponse raw resp body)
    (hk : (p.acts envs l).Waits h resp.tcp_header.request_id) (ch : Choice) :
    ((p.acts envs l).input envs h' ch raw).2 = .ok none ∧
    ((p.acts envs l).input envs h' ch raw).1.Waits h resp.tcp_header.request_id := by
  have hw := C122_apart envs p hp l h h' hne _ hk
  obtain ⟨h1, h2⟩ := input_unsolicited envs _ h' e he ch hr hw
  refine ⟨h1, ?_⟩
  rw [waits_iff] at hk ⊢
  rw [h2]
  exact hk

/-- An id that was generated and that a host does not wait for stays so. -/
theorem act_dead {envs : Nat → Ext σ H} {p : Process σ} (hp : Apart p) (a : Act σ) {h : Nat} {k : Int} (hk : k < (p.ids : Int))
    (hw : ¬ p.Waits h k) : k < ((p.act envs a).ids : Int) ∧ ¬ (p.act envs a).Waits h k := by
  have hids := act_ids envs p a
  refine ⟨by omega, ?_⟩
  rw [waits_iff] at *
  rintro ⟨x, hx, hm⟩
  obtain ⟨k1, k2, k3, k4⟩ := act_hosts envs p a h
  cases a with
  | serve h' e =>
    by_cases hh : h' = h
    · subst hh; rw [k1 e rfl] at hx; cases hx; simp at hm
    · rw [k3 (fun e' hc => by cases hc; exact hh rfl) (fun ch raw hc => by cases hc)] at hx
      exact hw ⟨x, hx, hm⟩
  | other n d y => exact hw ⟨x, hx, hm⟩
  | input h' ch raw =>
    by_cases hh : h' = h
    · subst hh
      cases hx0 : p.hosts h' with
      | none => rw [k4 ch raw rfl hx0] at hx; cases hx
      | some b =>
        have hs := onInput_pending (envs b.extension) ch
          { ids := p.ids, pending := b.pending, init := b.init, settings := p.settings, ext := p.states b.extension } raw
          (hp.1 h' b hx0).1 (hp.1 h' b hx0).2
        simp only [Process.act, Process.input, hx0] at hx
        rw [if_pos trivial] at hx
        cases hx
        rcases (hs.2 k hm).2 with hc | hc
        · exact hw ⟨b, hx0, hc⟩
        · dsimp only at hc; omega
    · rw [k3 (fun e' hc => by cases hc) (fun ch' raw' hc => by cases hc; exact hh rfl)] at hx
      exact hw ⟨x, hx, hm⟩

/-- C122: what a host waited for when `serve` was called again is forgotten for good: if the response comes after that, at any time and
however often `serve` is called, it is ignored. -/
theorem C122_forgotten (envs : Nat → Ext σ H) (p : Process σ) (hp : Unserved p) (l l' : List (Act σ)) (h e e' : Nat)
    {raw : Bytes} {resp : OutboundResponse} {body : Bytes} (hr : IsResponse raw resp body)
    (hk : (p.acts envs l).Waits h resp.tcp_header.request_id)
    (he : (((p.acts envs l).serve h e).acts envs l').serving h = some e') (ch : Choice) :
    ((((p.acts envs l).serve h e).acts envs l').input envs h ch raw).2 = .ok none := by
  have ha := hp.apart.acts (envs := envs) l
  generalize p.acts envs l = q at *
  have hlt : resp.tcp_header.request_id < (q.ids : Int) := by
    rw [waits_iff] at hk
    obtain ⟨x, hx, hm⟩ := hk
    exact (ha.1 h x hx).2 _ hm
  have hw : ¬ (q.serve h e).Waits h resp.tcp_header.request_id := by
    rw [waits_iff]
    rintro ⟨x, hx, hm⟩
    simp only [Process.serve] at hx
    rw [if_pos trivial] at hx
    cases hx; simp at hm
  have ha' : Apart (q.serve h e) := ha.act (envs := envs) (.serve h e)
  have key : ∀ (l : List (Act σ)) (q : Process σ), Apart q → resp.tcp_header.request_id < (q.ids : Int) →
      ¬ q.Waits h resp.tcp_header.request_id → ¬ (q.acts envs l).Waits h resp.tcp_header.request_id := by
    intro l
    induction l with
    | nil => exact fun q _ _ hw => hw
    | cons a l ih =>
      intro q hq h1 h2
      obtain ⟨h3, h4⟩ := act_dead (envs := envs) hq a h1 h2
      exact ih _ (hq.act a) h3 h4
  exact (input_unsolicited envs _ h e' he ch hr (key l' _ ha' hlt hw)).1

/-! ## Cases that meet the hypotheses -/

/-- Two hosts that serve two extensions; the first one has been asked to initialise and waits for the response with id 3. -/
def sampleProcess : Process Nat := { states := fun _ => 0, hosts := fun _ => none }
def sampleEnvs : Nat → Ext Nat Bool := fun _ => sampleExt
def sampleActs : List (Act Nat) := [.serve 0 0, .serve 1 1, .input 0 sampleChoice sampleInitFrame]

theorem sampleProcess_unserved : Unserved sampleProcess := fun _ => rfl
theorem sampleActs_waits : (sampleProcess.acts sampleEnvs sampleActs).Waits 0 3 := by
  rw [waits_iff]
  exact ⟨((sampleProcess.acts sampleEnvs sampleActs).hosts 0).get (by decide +kernel), (Option.some_get _).symm, by decide +kernel⟩

example := C122_alone sampleEnvs (sampleProcess.serve 0 0) [.serve 1 1, .input 0 sampleChoice sampleInitFrame] 0 0 _ rfl rfl
  (by intro e; simp)
example := C122_input sampleEnvs (sampleProcess.serve 0 0) 0 0 _ rfl rfl sampleChoice sampleInitFrame
example := C122_last sampleEnvs sampleProcess 0 rfl sampleActs
example := C122_reachable sampleEnvs sampleProcess sampleProcess_unserved sampleActs 0 0
  (C122_last sampleEnvs sampleProcess 0 rfl sampleActs)
example := C122_unserved sampleEnvs sampleProcess 7 rfl sampleActs (by intro e; simp [sampleActs]) sampleChoice sampleRestFrame
example := C122_apart sampleEnvs sampleProcess sampleProcess_unserved sampleActs 0 1 (by decide) 3 sampleActs_waits
example := C122_misdirected sampleEnvs sampleProcess sampleProcess_unserved sampleActs 0 1 1 (by decide)
  (C122_last sampleEnvs sampleProcess 1 rfl sampleActs) sampleAck_isResponse sampleActs_waits sampleChoice
example := C122_forgotten sampleEnvs sampleProcess sampleProcess_unserved sampleActs [] 0 2 2 sampleAck_isResponse sampleActs_waits
  rfl sampleChoice

end Verif
