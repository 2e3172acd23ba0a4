import Verif.Props.Frame
import Verif.Spec.Marks
/-!
# C90: the marks on the frames the host sends
-/

namespace Verif
open Py StreamInput StreamOutput

variable {σ H : Type}

theorem byte_testBit : ∀ (b : Fin 256) (k : Fin 8),
    (fromBytesSigned [UInt8.ofNat b.val]).testBit k = (b : Nat).testBit k := by decide +kernel

/-- The marks of the decoded header are those of the bytes. -/
theorem header_marks {raw rest : Bytes} {h : TcpHeader} (hr : TcpHeader.readFrom raw = .ok (h, rest)) (k : Nat) (hk : k < 8) :
    h.status.testBit k = true ↔ Marked k raw := by
  have hs : h.status = fromBytesSigned ((raw.drop 14).take 1) := by
    have e : TcpHeader.readFrom raw = .ok (⟨raw.take 2, fromBytesSigned (((raw.drop 2).drop 4).take 8),
        fromBytesSigned ((((raw.drop 2).drop 4).drop 8).take 1),
        .obj (Version.fromBytes (((((raw.drop 2).drop 4).drop 8).drop 1).take 4)), fromBytesSigned ((raw.drop 2).take 4),
        fromBytesSigned ((((((raw.drop 2).drop 4).drop 8).drop 1).drop 4).take 4)⟩,
        (((((raw.drop 2).drop 4).drop 8).drop 1).drop 4).drop 4) := rfl
    rw [e] at hr
    cases hr
    simp only [List.drop_drop]
  rw [hs]
  unfold Marked
  rcases hx : raw[14]? with _ | b
  · have : raw.drop 14 = [] := List.drop_eq_nil_of_le (by simpa using hx)
    rw [this]
    have : (fromBytesSigned ([] : Bytes)) = 0 := by decide
    simp [this, Int.testBit]
  · have : (raw.drop 14).take 1 = [b] := by
      obtain ⟨hl, hb⟩ := List.getElem?_eq_some_iff.1 hx
      rw [List.drop_eq_getElem_cons hl, hb]; rfl
    rw [this]
    have t := byte_testBit ⟨b.toNat, b.toNat_lt⟩ ⟨k, hk⟩
    simp only [UInt8.ofNat_toNat] at t
    simp [t]

theorem request_marks {raw : Bytes} {q : OutboundRequest} {b : Bytes} (h : IsRequest raw q b) :
    ¬ MarkedResponse raw ∧ (q.tcp_header.isCompress = true ↔ MarkedCompressed raw) ∧
      (q.tcp_header.isHandshake = true ↔ MarkedHandshake raw) := by
  obtain ⟨bl, hd, rest, h1, h2, h3⟩ := (parsesAsRequest_iff 0).1 h.1
  have e : q.tcp_header = hd := (request_readFrom_ok h3).1
  have hq := h.2
  unfold TcpHeader.isRequest TcpHeader.isResponse at hq
  have a0 := isStatus_eq hd 0
  have a2 := isStatus_eq hd 2
  have a3 := isStatus_eq hd 3
  refine ⟨?_, ?_, ?_⟩
  · unfold MarkedResponse
    rw [← header_marks h2 0 (by decide), ← a0]
    rw [e] at hq
    simpa [STATUS_REQRES] using hq
  · unfold MarkedCompressed
    rw [← header_marks h2 2 (by decide), ← a2, e]
    rfl
  · unfold MarkedHandshake
    rw [← header_marks h2 3 (by decide), ← a3, e]
    rfl

theorem response_marks {raw : Bytes} {q : OutboundResponse} {b : Bytes} (h : IsResponse raw q b) :
    MarkedResponse raw ∧ (q.tcp_header.isError = true ↔ MarkedError raw) ∧
      (q.tcp_header.isCompress = true ↔ MarkedCompressed raw) ∧
      (q.tcp_header.isHandshake = true ↔ MarkedHandshake raw) := by
  obtain ⟨bl, hd, rest, h1, h2, h3⟩ := (parsesAsResponse_iff 0).1 h.1
  have e : q.tcp_header = hd := (response_readFrom_ok h3).1
  have hq := h.2
  unfold TcpHeader.isResponse at hq
  have a0 := isStatus_eq hd 0
  have a1 := isStatus_eq hd 1
  have a2 := isStatus_eq hd 2
  have a3 := isStatus_eq hd 3
  refine ⟨?_, ?_, ?_, ?_⟩
  · unfold MarkedResponse
    rw [← header_marks h2 0 (by decide), ← a0, ← e]
    exact hq
  · unfold MarkedError
    rw [← header_marks h2 1 (by decide), ← a1, e]
    rfl
  · unfold MarkedCompressed
    rw [← header_marks h2 2 (by decide), ← a2, e]
    rfl
  · unfold MarkedHandshake
    rw [← header_marks h2 3 (by decide), ← a3, e]
    rfl

/-- A request the host sends has no marks. -/
theorem sent_request_marks {ho : HashOrder} {ctx : ThreadContext} {f : List String} {w : W} {a : String} {i i' : Nat}
    {n : OutboundRequest} {out : Bytes}
    (h : OutboundRequest.new (some ctx) f (some w) minCompat a none false false i = (.ok n, i'))
    (hc : CtxOK ctx) (hf : StrsOK f) (ha : StrOK a) (hw : written (n.writeTo ho) = .ok (some out)) :
    ¬ MarkedResponse out ∧ ¬ MarkedCompressed out ∧ ¬ MarkedHandshake out := by
  obtain ⟨h1, h2⟩ := written_ok.1 hw
  have hfit := header_fits_of_ok (message_header_ok h1)
  rw [requestNew_id h] at hfit
  obtain ⟨q, q1, q2, q3, q4, _⟩ := request_on_wire ho h hc hf ha minCompat_range.1 minCompat_range.2
    hfit.2.1 hfit.2.2 hfit.1 []
  simp only [List.append_nil] at q1
  have h2' : (n.toOutboundMessage.writeTo ho).out = out := h2
  rw [h2'] at q1
  obtain ⟨m1, m2, m3⟩ := request_marks q1
  rw [q4] at m2
  rw [q3] at m3
  simp only [Bool.false_eq_true, false_iff] at m2 m3
  exact ⟨m1, m2, m3⟩

/-- A reply has the marks of its request, and no error mark. -/
theorem reply_marks {raw out body rbody : Bytes} {req : OutboundRequest} {id : Int} (hr : IsRequest raw req body)
    (h : ReplyIs out id req.tcp_header.isHandshake req.tcp_header.isCompress req.ctx rbody) :
    MarkedResponse out ∧ ¬ MarkedError out ∧ (MarkedCompressed out ↔ MarkedCompressed raw) ∧
      (MarkedHandshake out ↔ MarkedHandshake raw) := by
  obtain ⟨reply, h1, h2, _, h3, h4, _⟩ := h
  obtain ⟨_, m2, m3⟩ := request_marks hr
  obtain ⟨n1, n2, n3, n4⟩ := response_marks h1
  rw [h4] at n3
  rw [h3] at n4
  rw [h2] at n2
  simp only [Bool.false_eq_true, false_iff] at n2
  exact ⟨n1, n2, n3.symm.trans m2, n4.symm.trans m3⟩

/-- C90: over any history, from a host that has just been set up, whatever the peers send: a request the host sends is
marked neither compressed nor handshake; a response it sends is not marked as an error, and is marked compressed (handshake)
exactly if the request that it answers is - the one being handled, or an earlier initialise-extension request.  So the host
never marks a frame compressed unless a peer did. -/
theorem C90_marks_partial (env : Ext σ H) (s0 s : Host σ) (h0 : Started s0) (l : List Exchange) (h : History env s0 l s)
    (pre post : List Exchange) (e : Exchange) (hl : l = pre ++ e :: post) (out : Bytes) (ho : e.output = .ok (some out)) :
    (¬ MarkedResponse out ∧ ¬ MarkedCompressed out ∧ ¬ MarkedHandshake out) ∨
    (MarkedResponse out ∧ ¬ MarkedError out ∧ ∃ e0 ∈ pre ++ [e], ∃ req body, IsRequest e0.input req body ∧
      (e0 = e ∨ req.action = "internal:discovery/extensions") ∧
      (MarkedCompressed out ↔ MarkedCompressed e0.input) ∧ (MarkedHandshake out ↔ MarkedHandshake e0.input)) := by
  obtain ⟨s1, ch, h1, h2⟩ := h.event hl
  have hI := (h1.reachable h0).inv
  rw [ho] at h2
  obtain ⟨s', hs'⟩ : ∃ s', (onInput env ch s1 e.input).1 = s' := ⟨_, rfl⟩
  have hx : onInput env ch s1 e.input = (s', .ok (some out)) := Prod.ext hs' h2.symm
  have here : e ∈ pre ++ [e] := by simp
  rcases onInput_cases env ch s1 e.input with ⟨req, body, hr⟩ | ⟨resp, body, hr⟩ | ⟨n, e', he⟩
  · rw [onInput_request hr] at hx
    by_cases ha : req.action = "internal:discovery/extensions"
    · left
      have e1 : handleRequest env ch { s1 with ids := s1.ids + 2 } req body =
          handleInit env ch { s1 with ids := s1.ids + 2 } req body := by
        unfold handleRequest; rw [if_pos ha]
      rw [e1] at hx
      cases hb : InitializeExtensionRequest.readFrom body with
      | error e2 =>
        have : handleInit env ch { s1 with ids := s1.ids + 2 } req body = ({ s1 with ids := s1.ids + 2 }, .error e2) := by
          unfold handleInit; rw [hb]
        rw [this] at hx; simp at hx
      | ok p =>
        obtain ⟨m, rest⟩ := p
        obtain ⟨response, sreq, rreq, i, hi, g1, g2, g3, g4⟩ :=
          handleInit_ok env ch { s1 with ids := s1.ids + 2 } req hb
        rw [g4] at hx
        simp only [Prod.mk.injEq] at hx
        exact sent_request_marks g3 (parsesAsRequest_ok hr.1).2.2 (parsesAsRequest_features hr.1) registerAction_ok hx.2
    · right
      obtain ⟨s2, _, _, _, _, ⟨e2, he⟩ | ⟨w, hw⟩⟩ := handleRequest_sends env ch { s1 with ids := s1.ids + 2 } req body ha
      · rw [he] at hx; simp at hx
      · rw [hw] at hx
        obtain ⟨m1, m2, m3, m4⟩ := reply_marks hr (sendReply_sent (parsesAsRequest_ok hr.1).2.2 hx).2
        exact ⟨m1, m2, e, here, req, body, hr, .inl rfl, m3, m4⟩
  · rw [onInput_response hr] at hx
    cases he : resp.tcp_header.isError with
    | true => rw [he] at hx; simp at hx
    | false =>
      rw [he] at hx
      simp only [Bool.false_eq_true, if_false] at hx
      unfold handleResponse at hx
      cases hg : s1.pending.get? resp.tcp_header.request_id with
      | none => simp only [hg] at hx; simp at hx
      | some p =>
        simp only [hg] at hx
        cases p with
        | registerRest n =>
          left
          simp only at hx
          unfold handleRegistered at hx
          cases hb : AcknowledgedResponse.readFrom body with
          | error e => rw [hb] at hx; simp at hx
          | ok p =>
            obtain ⟨ack, rest⟩ := p
            rw [hb] at hx
            simp only at hx
            cases hs : ack.status with
            | false => rw [hs] at hx; simp at hx
            | true =>
              rw [hs] at hx
              simp only [if_true, Prod.mk.injEq] at hx
              obtain ⟨ctx, f, i, c1, c2, c3, c4⟩ := hI.reg _ n (Dict.get?_mem hg)
              exact sent_request_marks c4 c1 c2 settingsAction_ok hx.2
        | settings =>
          right
          simp only at hx
          unfold handleSettings at hx
          cases hsr : Settings.readFrom env.depth s1.settings body with
          | mk d x =>
            cases x with
            | error e => simp only [hsr] at hx; simp at hx
            | ok rest =>
              simp only [hsr, Prod.mk.injEq] at hx
              cases hi : s1.init with
              | none => simp [hi] at hx
              | some rr =>
                simp only [hi] at hx
                obtain ⟨e0, he0, req, bd, ids, c1, c2, c3⟩ := h1.init_source h0 hi
                obtain ⟨w1, w2⟩ := written_ok.1 hx.2
                have hrep := (response_on_wire ch.ho c3 (parsesAsRequest_ok c1.1).2.2 w1).2
                have w2' : (rr.toOutboundMessage.writeTo ch.ho).out = out := w2
                rw [w2'] at hrep
                obtain ⟨m1, m2, m3, m4⟩ := reply_marks c1 hrep
                exact ⟨m1, m2, e0, List.mem_append_left _ he0, req, bd, c1, .inr c2, m3, m4⟩
  · rw [he] at hx; simp at hx

/-- C90 is violated: in every host state, every well-formed `internal:tcp/handshake` frame that is marked compressed
(although its body is not) is answered with a
frame that is marked compressed and whose body is, byte for byte, the body of the answer to the unmarked frame: nothing is
ever compressed or decompressed. -/
theorem C90_violated (env : Ext σ H) (ch : Choice) (s : Host σ) {frame plain : Bytes} {ctx : ThreadContext}
    {f : List String} {id : Int} {hs : Bool} {task : TaskId} {v : Version}
    (h : RequestFrame frame ctx f (HandshakerRequest.writeTo ⟨task, some v⟩) "internal:tcp/handshake" id hs true)
    (hp : RequestFrame plain ctx f (HandshakerRequest.writeTo ⟨task, some v⟩) "internal:tcp/handshake" id hs false)
    (ht : TaskIdOK task) (hv : VersionOK v) :
    MarkedCompressed frame ∧ ¬ MarkedCompressed plain ∧
    ∃ out out' body, (onInput env ch s frame).2 = .ok (some out) ∧ (onInput env ch s plain).2 = .ok (some out') ∧
      MarkedCompressed out ∧ ¬ MarkedCompressed out' ∧ ReplyIs out id hs true ctx body ∧ ReplyIs out' id hs false ctx body ∧
      HandshakerResponse.readFrom body = .ok (⟨Version.new 3000099⟩, []) := by
  obtain ⟨_, _, q, q1, _, _, _, _, q4, _⟩ := frame_parses h []
  obtain ⟨_, _, p, p1, _, _, _, _, p4, _⟩ := frame_parses hp []
  rw [List.append_nil] at q1 p1
  obtain ⟨out, b, o1, o2, o3, rfl⟩ := C37_tcp_handshake env ch s h ht hv []
  obtain ⟨out', b', o1', o2', o3', rfl⟩ := C37_tcp_handshake env ch s hp ht hv []
  rw [List.append_nil] at o1 o1'
  obtain ⟨_, mq, _⟩ := request_marks q1
  obtain ⟨_, mp, _⟩ := request_marks p1
  rw [q4] at mq
  rw [p4] at mp
  refine ⟨mq.1 rfl, fun hc => (by cases mp.2 hc), out, out', _, by rw [o1], by rw [o1'], ?_, ?_, o2, o2', o3⟩
  · obtain ⟨r, r1, _, _, _, r2, _⟩ := o2
    exact (response_marks r1).2.2.1.1 r2
  · obtain ⟨r, r1, _, _, _, r2, _⟩ := o2'
    intro hc
    have := (response_marks r1).2.2.1.2 hc
    rw [r2] at this
    cases this

/-- C90: such frames exist. -/
example : ∃ frame plain, RequestFrame frame { request_headers := [("_system_index_access_allowed", "false")] } ["f"]
      (HandshakerRequest.writeTo ⟨⟨"node", some 7⟩, some (Version.new 3000099)⟩) "internal:tcp/handshake" 3 true true ∧
    RequestFrame plain { request_headers := [("_system_index_access_allowed", "false")] } ["f"]
      (HandshakerRequest.writeTo ⟨⟨"node", some 7⟩, some (Version.new 3000099)⟩) "internal:tcp/handshake" 3 true false :=
  ⟨_, _, ⟨idOrder, Version.new 2070099, 0, 0, _, rfl, rfl, by decide +kernel, by decide +kernel, by decide +kernel,
    by decide +kernel, by decide +kernel, by decide +kernel⟩, ⟨idOrder, Version.new 2070099, 0, 0, _, rfl, rfl,
    by decide +kernel, by decide +kernel, by decide +kernel, by decide +kernel, by decide +kernel, by decide +kernel⟩⟩

/-- C90: the sample history has outputs of both kinds. -/
example : History sampleExt sampleHost [sampleEvent1, sampleEvent2, sampleEvent3]
    (onInput sampleExt sampleChoice (onInput sampleExt sampleChoice sampleInited (sampleAck true 3)).1 (sampleSettingsFrame 2)).1 ∧
    Started sampleHost ∧ sampleEvent1.SendsRequest 3 "internal:discovery/registerrestactions" :=
  ⟨sampleHistory, sampleHost_started, sampleEvent1_sends⟩

example := C90_marks_partial sampleExt sampleHost _ sampleHost_started _ sampleHistory [sampleEvent1, sampleEvent2] []
  sampleEvent3 rfl _ sampleEvent3_output

end Verif
