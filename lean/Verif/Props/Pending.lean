import Verif.Lemmas.HostSends
import Verif.Props.Init
/-!
# C45, C46, C48: outstanding requests of the host
-/

namespace Verif
open Py

variable {σ H : Type}

/-! ## C48 -/

/-- C48: a response nobody waits for produces no output and changes nothing but the id counter. -/
theorem C48_unsolicited (env : Ext σ H) (ch : Choice) (s : Host σ) {raw : Bytes} {resp : OutboundResponse}
    {body : Bytes} (h : IsResponse raw resp body) (hu : ¬ Outstanding s resp.tcp_header.request_id) :
    onInput env ch s raw = ({ s with ids := s.ids + 2 }, .ok none) := by
  rw [onInput_response h]
  split
  · rfl
  · unfold handleResponse
    have : s.pending.get? resp.tcp_header.request_id = none := Dict.get?_eq_none.2 hu
    simp only [this]

example := C48_unsolicited sampleExt sampleChoice sampleHost sampleAck_isResponse (by unfold Outstanding; decide +kernel)

/-- C48: so does a response flagged as an error, whatever its id. -/
theorem C48_error (env : Ext σ H) (ch : Choice) (s : Host σ) {raw : Bytes} {resp : OutboundResponse}
    {body : Bytes} (h : IsResponse raw resp body) (he : resp.tcp_header.isError = true) :
    onInput env ch s raw = ({ s with ids := s.ids + 2 }, .ok none) := by
  rw [onInput_response h, if_pos he]

example := C48_error sampleExt sampleChoice sampleInited sampleError_isResponse (by decide +kernel)

/-- C48: a negative acknowledgement of a registration produces no output; afterwards the host no
longer waits for it, and all its other outstanding requests are as before. -/
theorem C48_negative (env : Ext σ H) (ch : Choice) (s : Host σ) (hs : Reachable env s) {raw : Bytes}
    {resp : OutboundResponse} {body rest : Bytes} (h : IsResponse raw resp body)
    (he : resp.tcp_header.isError = false) {n : OutboundRequest}
    (hp : s.pending.get? resp.tcp_header.request_id = some (.registerRest n))
    (hneg : AcknowledgedResponse.readFrom body = .ok (⟨false⟩, rest)) :
    ∃ s', onInput env ch s raw = (s', .ok none) ∧ ¬ Outstanding s' resp.tcp_header.request_id ∧
      (∀ k, k ≠ resp.tcp_header.request_id → s'.pending.get? k = s.pending.get? k) ∧
      s'.init = s.init ∧ s'.settings = s.settings ∧ s'.ext = s.ext := by
  refine ⟨{ s with ids := s.ids + 2, pending := s.pending.erase resp.tcp_header.request_id }, ?_, ?_, ?_, rfl, rfl, rfl⟩
  · rw [onInput_response h, he]
    simp only [Bool.false_eq_true, if_false]
    unfold handleResponse
    simp only [hp]
    unfold handleRegistered
    simp [hneg]
  · unfold Outstanding
    rw [← Dict.get?_eq_none]
    rw [Dict.get?_erase hs.inv.wf]; simp
  · intro k hk
    show (s.pending.erase _).get? k = _
    rw [Dict.get?_erase hs.inv.wf, if_neg (Ne.symm hk)]

example := C48_negative sampleExt sampleChoice sampleInited sampleInited_reachable sampleNack_isResponse
  (by decide +kernel) sampleInited_pending (rest := []) (by decide +kernel)

/-! ## C46 -/

/-- C46: the ids under which handlers wait are pairwise distinct, and were all generated by the
process-wide counter (they are below it). -/
theorem C46_distinct (env : Ext σ H) (s : Host σ) (h : Reachable env s) :
    (s.pending.map (·.1)).Nodup ∧ ∀ k, Outstanding s k → 0 ≤ k ∧ k < s.ids :=
  ⟨h.inv.wf, h.inv.range⟩

example := C46_distinct sampleExt sampleInited sampleInited_reachable

/-- C46: whatever input arrives, an outstanding request stays outstanding with its handler untouched,
unless the input is a (non-error) response with its id. -/
theorem C46_no_overwrite (env : Ext σ H) (ch : Choice) (s : Host σ) (hs : Reachable env s) (raw : Bytes)
    (k : Int) (p : Pending) (h : s.pending.get? k = some p) (hr : ¬ Responds raw k) :
    (onInput env ch s raw).1.pending.get? k = some p := by
  have hI := hs.inv
  rcases onInput_effect env ch s raw with ⟨h1, _⟩ | ⟨resp, body, q, he, h1, _⟩ |
    ⟨req, body, q, ha, i, sreq, response, hi, h1, _, h2, _⟩
  · rw [h1, h]
  · rw [h1, Dict.get?_erase hI.wf, if_neg, h]
    intro e
    exact hr ⟨resp, body, q, he, e⟩
  · have hk := hI.range k (List.mem_map.2 ⟨_, Dict.get?_mem h, rfl⟩)
    have hge := idsAfter_ge (some req.tcp_header.request_id) (s.ids + 2)
    rw [h2, Dict.get?_set, if_neg (by omega), Dict.get?_set, if_neg (by omega), h]

example := C46_no_overwrite sampleExt sampleChoice sampleInited sampleInited_reachable sampleRestFrame 2 .settings
  (by decide +kernel) (fun ⟨_, _, hr, _⟩ => sampleRest_isRequest.not_response hr)

/-- The id was used for a request and cannot be used again. -/
def Spent (a : Int) (s : Host σ) : Prop :=
  a < s.ids ∧ ∀ k n, (k, Pending.registerRest n) ∈ s.pending → n.tcp_header.request_id ≠ a

theorem Spent.onInput {env : Ext σ H} {s : Host σ} {a : Int} (h : Spent a s) (hI : Inv env s)
    (ch : Choice) (raw : Bytes) : Spent a (onInput env ch s raw).1 := by
  have hids := onInput_ids env ch s raw
  refine ⟨by have := h.1; omega, ?_⟩
  rcases onInput_effect env ch s raw with ⟨h1, _⟩ | ⟨resp, body, q, he, h1, _⟩ |
    ⟨req, body, q, ha, i, sreq, response, hi, h1, hs, h2, _⟩
  · rw [h1]; exact h.2
  · rw [h1]; intro k n hk
    exact h.2 k n ((Dict.erase_sublist _ _).subset hk)
  · have hge := idsAfter_ge (some req.tcp_header.request_id) (s.ids + 2)
    rw [h2, set_two hI (by omega)]
    intro k n hk
    rw [List.mem_append] at hk
    rcases hk with hk | hk
    · exact h.2 k n hk
    · simp only [List.mem_cons, Prod.mk.injEq, List.not_mem_nil, or_false, reduceCtorEq, and_false, false_or,
          Pending.registerRest.injEq] at hk
      obtain ⟨_, rfl⟩ := hk
      rw [requestNew_id hs]
      have := h.1
      show (i : Int) ≠ a
      omega

theorem Spent.evolves {env : Ext σ H} {P : Bytes → Prop} {s s' : Host σ} {a : Int} (h : Spent a s)
    (hI : Inv env s) (e : Evolves env P s s') : Spent a s' := by
  induction e with
  | refl => exact h
  | input ch raw e _ ih => exact ih.onInput (hI.evolves e) ch raw
  | other n d x _ hn ih => exact ⟨by have := ih.1; simp only; omega, ih.2⟩

/-- C46, on the wire: over any history, no two requests sent by the host carry the same id. -/
theorem C46_wire (env : Ext σ H) (ch1 ch2 : Choice) (s s1 s2 s3 : Host σ) (hs : Reachable env s)
    {raw1 raw2 out1 out2 : Bytes} {q1 q2 : OutboundRequest} {b1 b2 : Bytes}
    (h1 : onInput env ch1 s raw1 = (s1, .ok (some out1))) (r1 : IsRequest out1 q1 b1)
    (he : Evolves env (fun _ => True) s1 s2)
    (h2 : onInput env ch2 s2 raw2 = (s3, .ok (some out2))) (r2 : IsRequest out2 q2 b2) :
    q1.tcp_header.request_id ≠ q2.tcp_header.request_id := by
  have hI := hs.inv
  have hI1 : Inv env s1 := by have := hI.onInput ch1 raw1; rw [h1] at this; exact this
  have hspent : Spent q1.tcp_header.request_id s1 := by
    rcases onInput_sends_request hI h1 r1 with ⟨_, i, sreq, a1, a2, a3, a4, a5⟩ | ⟨k, n, _, a1, a2, a3, a4, _⟩
    · rw [a3]
      refine ⟨by omega, ?_⟩
      rw [a5]
      intro k n hk
      rw [List.mem_append] at hk
      rcases hk with hk | hk
      · obtain ⟨_, _, j, _, _, e, hn⟩ := hI.reg k n hk
        have := hI.range k (List.mem_map.2 ⟨_, hk, rfl⟩)
        rw [requestNew_id hn]
        show (j : Int) ≠ _
        omega
      · simp only [List.mem_cons, Prod.mk.injEq, List.not_mem_nil, or_false, reduceCtorEq, and_false, false_or,
          Pending.registerRest.injEq] at hk
        obtain ⟨_, rfl⟩ := hk
        omega
    · obtain ⟨_, _, j, _, _, e, hn⟩ := hI.reg k n (Dict.get?_mem a1)
      have hk := hI.range k (List.mem_map.2 ⟨_, Dict.get?_mem a1, rfl⟩)
      have ej : n.tcp_header.request_id = (j : Int) := requestNew_id hn
      rw [a2, ej]
      refine ⟨by omega, ?_⟩
      rw [a4]
      intro k' n' hk'
      obtain ⟨_, _, j', _, _, e', hn'⟩ := hI.reg k' n' ((Dict.erase_sublist _ _).subset hk')
      have ej' : n'.tcp_header.request_id = (j' : Int) := requestNew_id hn'
      rw [ej']
      intro ejj
      have hkk : k' = k := by omega
      subst hkk
      have hg := Dict.get?_of_mem (hI.wf.erase k') hk'
      rw [Dict.get?_erase hI.wf] at hg
      simp at hg
  have hsp2 := hspent.evolves hI1 he
  have hI2 := hI1.evolves he
  rcases onInput_sends_request hI2 h2 r2 with ⟨_, i, sreq, a1, a2, a3, _⟩ | ⟨k, n, _, a1, a2, _⟩
  · rw [a3]; have := hsp2.1; omega
  · rw [a2]; exact (hsp2.2 k n (Dict.get?_mem a1)).symm

example := C46_wire sampleExt sampleChoice sampleChoice sampleHost _ _ _ sampleHost_reachable sampleInit_sends
  sampleInit_asks (.input sampleChoice sampleRestFrame .refl trivial) sampleInit_sends_again sampleInit_asks_again

/-! ## C45 -/

theorem dead_onInput {env : Ext σ H} {s : Host σ} {k : Int} (hI : Inv env s)
    (h : k < s.ids ∧ ¬ Outstanding s k) (ch : Choice) (raw : Bytes) :
    k < (onInput env ch s raw).1.ids ∧ ¬ Outstanding (onInput env ch s raw).1 k := by
  have hids := onInput_ids env ch s raw
  refine ⟨by have := h.1; omega, ?_⟩
  unfold Outstanding
  rcases onInput_effect env ch s raw with ⟨h1, _⟩ | ⟨resp, body, q, he, h1, _⟩ |
    ⟨req, body, q, ha, i, sreq, response, hi, h1, hs, h2, _⟩
  · rw [h1]; exact h.2
  · rw [h1]; exact fun hm => h.2 (((Dict.erase_sublist _ _).map _).subset hm)
  · have hge := idsAfter_ge (some req.tcp_header.request_id) (s.ids + 2)
    rw [h2, set_two hI (by omega), List.map_append, List.mem_append]
    rintro (hm | hm)
    · exact h.2 hm
    · have := h.1
      simp at hm; omega

/-- C45: once a (non-error) response with an id the host has generated was processed - with or
without success - then, after any further history, a response with the same id produces no output
and changes nothing but the id counter. -/
theorem C45_at_most_once (env : Ext σ H) (ch ch' : Choice) (s s2 : Host σ) (hs : Reachable env s)
    {raw raw' : Bytes} {k : Int} (hk : Outstanding s k ∨ k < s.ids) (hr : Responds raw k)
    (he : Evolves env (fun _ => True) (onInput env ch s raw).1 s2)
    {resp' : OutboundResponse} {body' : Bytes} (hr' : IsResponse raw' resp' body')
    (hid : resp'.tcp_header.request_id = k) :
    onInput env ch' s2 raw' = ({ s2 with ids := s2.ids + 2 }, .ok none) := by
  have hI := hs.inv
  have hk' : k < s.ids := by
    rcases hk with h | h
    · exact (hI.range k h).2
    · exact h
  obtain ⟨resp, body, q1, q2, q3⟩ := hr
  have hdead : k < (onInput env ch s raw).1.ids ∧ ¬ Outstanding (onInput env ch s raw).1 k := by
    refine ⟨by have := onInput_ids env ch s raw; omega, ?_⟩
    rw [onInput_response q1, q2]
    simp only [Bool.false_eq_true, if_false]
    obtain ⟨d, hd⟩ := handleResponse_state env ch { s with ids := s.ids + 2 } resp body
    unfold Outstanding
    rw [hd, ← Dict.get?_eq_none]
    show (s.pending.erase _).get? k = none
    rw [Dict.get?_erase hI.wf, if_pos q3]
  have hI1 := hI.onInput ch raw
  have hdead2 : k < s2.ids ∧ ¬ Outstanding s2 k := by
    generalize (onInput env ch s raw).1 = s1 at *
    clear hr' hid
    induction he with
    | refl => exact hdead
    | input ch raw e _ ih => exact dead_onInput (hI1.evolves e) ih ch raw
    | other n d x _ hn ih => exact ⟨by have := ih.1; simp only; omega, ih.2⟩
  exact C48_unsolicited env ch' s2 hr' (by rw [hid]; exact hdead2.2)

example := C45_at_most_once sampleExt sampleChoice sampleChoice sampleInited _ sampleInited_reachable (k := 3)
  (.inl (by unfold Outstanding; decide +kernel)) ⟨_, _, sampleAck_isResponse, by decide +kernel, by decide +kernel⟩ .refl
  sampleAck_isResponse (by decide +kernel)

/-! ## Cases that meet the hypotheses -/

/-- C46: after the sample initialisation two requests are outstanding, 2 (settings) and 3 (registration). -/
example : Reachable sampleExt sampleInited ∧ sampleInited.pending.map (·.1) = [2, 3] ∧
    (∃ n, sampleInited.pending.get? 3 = some (.registerRest n)) ∧ sampleInited.pending.get? 2 = some .settings := by
  refine ⟨sampleInited_reachable, by decide +kernel, ?_, by decide +kernel⟩
  have : (sampleInited.pending.get? 3).isSome ∧ sampleInited.pending.get? 3 ≠ some .settings := by decide +kernel
  cases h : sampleInited.pending.get? 3 with
  | none => rw [h] at this; simp at this
  | some p =>
    cases p with
    | registerRest n => exact ⟨n, rfl⟩
    | settings => exact absurd h this.2

/-- C45, C48: an acknowledgement, positive or negative, with an id that is outstanding (3) or not. -/
example (b : Bool) : ∃ resp body rest, IsResponse (sampleAck b 3) resp body ∧ resp.tcp_header.isError = false ∧
    resp.tcp_header.request_id = 3 ∧ AcknowledgedResponse.readFrom body = .ok (⟨b⟩, rest) ∧
    Outstanding sampleInited 3 ∧ ¬ Outstanding sampleHost 3 := by
  obtain ⟨_, resp, r1, r2, r3⟩ := response_frame_parses (sampleAck_ok b) []
  rw [List.append_nil] at r1
  refine ⟨resp, _, [], r1, r2, r3, ?_, by unfold Outstanding; decide +kernel, by unfold Outstanding; decide +kernel⟩
  cases b <;> decide +kernel

/-- C46 (wire): two initialisations, each sends a registration request. -/
example : ((onInput sampleExt sampleChoice sampleHost sampleInitFrame).2.toOption.join).isSome ∧
    ((onInput sampleExt sampleChoice sampleInited sampleInitFrame).2.toOption.join).isSome := by decide +kernel

end Verif
