import Verif.Props.Order
import Verif.Spec.Independence
/-!
# C91: answers do not depend on other traffic
-/

namespace Verif
open Py

variable {σ H : Type}

theorem replyTo_ids (req : OutboundRequest) (w : W) (hid : req.tcp_header.request_id ≠ 0) (n : Nat) :
    replyTo req w n = ((replyTo req w 0).1, n) := by
  unfold replyTo OutboundResponse.new OutboundMessage.new TcpHeader.new
  simp only [hid, if_false]
  cases w.err <;> rfl

theorem sendReply_local (ch : Choice) (s s' : Host σ) (req : OutboundRequest) (w : W) (hid : req.tcp_header.request_id ≠ 0) :
    (sendReply ch s req w).2 = (sendReply ch s' req w).2 ∧ (sendReply ch s req w).1.ext = s.ext := by
  unfold sendReply
  rw [replyTo_ids req w hid s.ids, replyTo_ids req w hid s'.ids]
  cases (replyTo req w 0).1 <;> exact ⟨rfl, rfl⟩

theorem handleRequest_local (env : Ext σ H) (ch : Choice) (s s' : Host σ) (req : OutboundRequest) (body : Bytes)
    (hid : req.tcp_header.request_id ≠ 0) (ha : req.action ≠ "internal:discovery/extensions") (hx : s.ext = s'.ext) :
    (handleRequest env ch s req body).2 = (handleRequest env ch s' req body).2 ∧
    (handleRequest env ch s req body).1.ext = (handleRequest env ch s' req body).1.ext := by
  have send : ∀ (t t' : Host σ) (w : W), t.ext = t'.ext → (sendReply ch t req w).2 = (sendReply ch t' req w).2 ∧
      (sendReply ch t req w).1.ext = (sendReply ch t' req w).1.ext := fun t t' w h =>
    ⟨(sendReply_local ch t t' req w hid).1, by
      rw [(sendReply_local ch t t' req w hid).2, (sendReply_local ch t' t req w hid).2, h]⟩
  unfold handleRequest
  rw [if_neg ha, if_neg ha]
  split
  · unfold handleRest
    cases ExtensionRestRequest.readFrom {} body with
    | error e => exact ⟨rfl, hx⟩
    | ok p =>
      obtain ⟨q, rest⟩ := p
      dsimp only
      cases q.method with
      | none => exact ⟨rfl, hx⟩
      | some m =>
        dsimp only
        rw [← hx]
        rcases env.registry.handle env.run (m.name ++ " " ++ q.path) s.ext q with ⟨x, e | r⟩
        · exact ⟨rfl, rfl⟩
        · apply send; rfl
  · split
    · unfold handleTcpHandshake
      cases HandshakerRequest.readFrom body with
      | error e => exact ⟨rfl, hx⟩
      | ok p => (apply send; exact hx)
    · split
      · unfold handleTransportHandshake
        cases ServiceHandshakeRequest.readFrom body with
        | error e => exact ⟨rfl, hx⟩
        | ok p =>
          dsimp only
          generalize ServiceHandshakeResponse.writeTo _ = w
          exact send _ _ w hx
      · unfold handleNotFound
        exact send _ _ _ hx

/-- C91: the answer to a plain request - the bytes sent, or the exception - is determined by the request and by the
extension's own state: not by the ids used up, the outstanding requests, the initialisations or the settings received. -/
theorem C91_local (env : Ext σ H) (ch : Choice) (s s' : Host σ) (raw : Bytes) (hr : PlainRequest raw) (hx : s.ext = s'.ext) :
    (onInput env ch s raw).2 = (onInput env ch s' raw).2 ∧
    (onInput env ch s raw).1.ext = (onInput env ch s' raw).1.ext := by
  obtain ⟨req, body, h1, h2, h3⟩ := hr
  rw [onInput_request h1, onInput_request h1]
  exact handleRequest_local env ch _ _ req body h2 h3 hx

theorem sendReply_ext (ch : Choice) (s : Host σ) (req : OutboundRequest) (w : W) : (sendReply ch s req w).1.ext = s.ext := by
  unfold sendReply
  rcases replyTo req w s.ids with ⟨x, n⟩
  cases x <;> rfl

/-- Only REST requests reach the extension. -/
theorem onInput_ext (env : Ext σ H) (ch : Choice) (s : Host σ) (raw : Bytes) (h : ¬ IsRestRequest raw) :
    (onInput env ch s raw).1.ext = s.ext := by
  rcases onInput_cases env ch s raw with ⟨req, body, hr⟩ | ⟨resp, body, hr⟩ | ⟨n, e, he⟩
  · rw [onInput_request hr]
    have hne : req.action ≠ "internal:extensions/restexecuteonextensiontaction" := fun ha => h ⟨req, body, hr, ha⟩
    unfold handleRequest
    split
    · rename_i hi
      cases hb : InitializeExtensionRequest.readFrom body with
      | error e => unfold handleInit; rw [hb]
      | ok p =>
        obtain ⟨_, _, _, _, _, _, _, _, h4⟩ := handleInit_ok env ch { s with ids := s.ids + 2 } req hb
        rw [h4]
    · split
      · unfold handleTcpHandshake
        split
        · rfl
        · rw [sendReply_ext]
      · split
        · unfold handleTransportHandshake
          split
          · rfl
          · rw [sendReply_ext]
        · unfold handleNotFound
          rw [sendReply_ext]
  · rw [onInput_response hr]
    split
    · rfl
    · obtain ⟨d, hd⟩ := handleResponse_state env ch { s with ids := s.ids + 2 } resp body
      rw [hd]
  · rw [he]

/-- What a REST request does to the extension depends on the extension's state only. -/
theorem rest_ext (env : Ext σ H) (ch : Choice) (s s' : Host σ) (raw : Bytes) (h : IsRestRequest raw) (hx : s.ext = s'.ext) :
    (onInput env ch s raw).1.ext = (onInput env ch s' raw).1.ext := by
  obtain ⟨req, body, hr, ha⟩ := h
  rw [onInput_request hr, onInput_request hr]
  unfold handleRequest
  rw [if_neg (by rw [ha]; decide +kernel), if_pos ha, if_neg (by rw [ha]; decide +kernel), if_pos ha]
  unfold handleRest
  cases ExtensionRestRequest.readFrom {} body with
  | error e => exact hx
  | ok p =>
    obtain ⟨q, rest⟩ := p
    dsimp only
    cases q.method with
    | none => exact hx
    | some m =>
      dsimp only
      rw [← hx]
      rcases env.registry.handle env.run (m.name ++ " " ++ q.path) s.ext q with ⟨x, e | r⟩
      · rfl
      · dsimp only
        rw [sendReply_ext, sendReply_ext]

open Classical in
theorem after_ext (env : Ext σ H) (l : List Input) (s s' : Host σ) (hx : s.ext = s'.ext) :
    (after env s l).ext = (after env s' (l.filter fun i => decide (IsRestRequest i.raw))).ext := by
  induction l generalizing s s' with
  | nil => exact hx
  | cons i l ih =>
    by_cases h : IsRestRequest i.raw
    · rw [List.filter_cons_of_pos (by simpa using h)]
      exact ih _ _ (rest_ext env i.choice s s' i.raw h hx)
    · rw [List.filter_cons_of_neg (by simpa using h)]
      exact ih _ _ ((onInput_ext env i.choice s i.raw h).trans hx)

open Classical in
/-- C91: after any traffic, a plain request gets the answer it would have got if of all that traffic only the REST requests
had arrived: handshakes, initialisations, acknowledgements, settings, unknown actions, unasked responses and garbage, on
whatever connection, can be left out.  In particular, before the first REST request every plain request is answered as on
a fresh host. -/
theorem C91_other_traffic (env : Ext σ H) (s : Host σ) (l : List Input) (ch : Choice) (raw : Bytes) (hr : PlainRequest raw) :
    (onInput env ch (after env s l) raw).2 =
      (onInput env ch (after env s (l.filter fun i => decide (IsRestRequest i.raw))) raw).2 :=
  (C91_local env ch _ _ raw hr (after_ext env l s s rfl)).1

/-- C91: an extension whose handlers do not look at their state is never influenced by earlier traffic at all. -/
theorem C91_stateless (env : Ext σ H) (hrun : ∀ h x y r, (env.run h x r).2 = (env.run h y r).2) (s s' : Host σ)
    (l l' : List Input) (ch : Choice) (raw : Bytes) (hr : PlainRequest raw) :
    (onInput env ch (after env s l) raw).2 = (onInput env ch (after env s' l') raw).2 := by
  generalize after env s l = t
  generalize after env s' l' = t'
  obtain ⟨req, body, h1, h2, h3⟩ := hr
  rw [(C91_local env ch t { t' with ext := t.ext } raw ⟨req, body, h1, h2, h3⟩ rfl).1]
  rw [onInput_request h1, onInput_request h1]
  unfold handleRequest
  rw [if_neg h3, if_neg h3]
  split
  · unfold handleRest
    cases ExtensionRestRequest.readFrom {} body with
    | error e => rfl
    | ok p =>
      obtain ⟨q, rest⟩ := p
      dsimp only
      cases q.method with
      | none => rfl
      | some m =>
        dsimp only
        have hh : (env.registry.handle env.run (m.name ++ " " ++ q.path) t.ext q).2 =
            (env.registry.handle env.run (m.name ++ " " ++ q.path) t'.ext q).2 := by
          unfold Registry.handle
          cases env.registry.dispatch (m.name ++ " " ++ q.path) with
          | none => rfl
          | some h => exact hrun h _ _ _
        revert hh
        rcases env.registry.handle env.run (m.name ++ " " ++ q.path) t.ext q with ⟨x, e | r⟩ <;>
          rcases env.registry.handle env.run (m.name ++ " " ++ q.path) t'.ext q with ⟨x', e' | r'⟩ <;> intro hh <;>
          simp only [reduceCtorEq, Except.error.injEq, Except.ok.injEq] at hh
        · subst hh; rfl
        · subst hh
          exact (sendReply_local ch _ _ req _ h2).1
  · split
    · unfold handleTcpHandshake
      cases HandshakerRequest.readFrom body with
      | error e => rfl
      | ok p => exact (sendReply_local ch _ _ req _ h2).1
    · split
      · unfold handleTransportHandshake
        cases ServiceHandshakeRequest.readFrom body with
        | error e => rfl
        | ok p => exact (sendReply_local ch _ _ req _ h2).1
      · exact (sendReply_local ch _ _ req _ h2).1

/-- C91: the sample REST request is a plain request. -/
theorem sampleRest_plain : PlainRequest sampleRestFrame ∧ IsRestRequest sampleRestFrame := by
  obtain ⟨_, _, req, q1, _, q3, q4, _, _, _, _, _, q10⟩ := frame_parses sampleRestFrame_ok []
  rw [List.append_nil] at q1
  exact ⟨⟨req, _, q1, by rw [q3]; exact q4.2.2, by rw [q10]; decide +kernel⟩, req, _, q1, q10⟩

open Classical in
/-- C91: behind an initialisation and its acknowledgement it is answered as on the fresh host. -/
example (ch : Choice) : (onInput sampleExt ch (after sampleExt sampleHost [⟨sampleChoice, sampleInitFrame⟩]) sampleRestFrame).2 =
    (onInput sampleExt ch sampleHost sampleRestFrame).2 := by
  rw [C91_other_traffic _ _ _ _ _ sampleRest_plain.1, List.filter_cons_of_neg]
  · rfl
  · obtain ⟨req, body, h1, h2⟩ := sampleInit_initialises
    simp only [decide_eq_true_eq]
    rintro ⟨req', body', h3, h4⟩
    obtain ⟨rfl, _⟩ := h1.unique h3
    rw [h2] at h4
    exact absurd h4 (by decide +kernel)

/-- C91: an extension with stateless handlers. -/
example : ∀ h x y r, ((fun (_ : Bool) (n : Nat) (r : ExtensionRestRequest) =>
      (n, Except.ok (ε := Err) (ExtensionRestResponse.new (some r) (some .OK) [33]))) h x r).2 =
    ((fun (_ : Bool) (n : Nat) (r : ExtensionRestRequest) =>
      (n, Except.ok (ε := Err) (ExtensionRestResponse.new (some r) (some .OK) [33]))) h y r).2 := fun _ _ _ _ => rfl

example := C91_local sampleExt sampleChoice sampleHost sampleInited sampleRestFrame sampleRest_plain.1 (by decide +kernel)
example := C91_stateless { sampleExt with run := fun _ n r => (n + 1, .ok (ExtensionRestResponse.new (some r) (some .OK) [33])) }
  (fun _ _ _ _ => rfl) sampleHost sampleHost [⟨sampleChoice, sampleInitFrame⟩] [] sampleChoice sampleRestFrame sampleRest_plain.1

end Verif
