import Verif.Spec.Environment
import Verif.Props.Settings
import Verif.Props.Pending
/-!
# C85: the environment settings of the process
-/

namespace Verif
open Py StreamInput StreamOutput Spec

variable {σ H : Type}

theorem readLoop_entries (depth : Nat) (n : Nat) (d : Dict String PyVal) (bs : Bytes) :
    ∃ l, Entries depth n bs l ∧ (Settings.readLoop depth n d bs).1 = l.foldl (fun d kv => d.set kv.1 kv.2) d := by
  induction n generalizing d bs with
  | zero => exact ⟨[], .all bs, rfl⟩
  | succ n ih =>
    unfold Settings.readLoop
    cases hk : readString bs with
    | error e =>
      refine ⟨[], .badKey hk, ?_⟩
      have : (do let key ← readString; let value ← readGeneric depth; return (key, value) : Reader _) bs = .error e := by
        show Reader.bind _ _ _ = _
        unfold Reader.bind; rw [hk]
      rw [this]; rfl
    | ok p =>
      obtain ⟨k, r1⟩ := p
      cases hv : readGeneric depth r1 with
      | error e =>
        refine ⟨[], .badValue hk hv, ?_⟩
        have : (do let key ← readString; let value ← readGeneric depth; return (key, value) : Reader _) bs = .error e := by
          show Reader.bind _ _ _ = _
          unfold Reader.bind; rw [hk]
          show Reader.bind _ _ _ = _
          unfold Reader.bind; rw [hv]
        rw [this]; rfl
      | ok q =>
        obtain ⟨v, r2⟩ := q
        obtain ⟨l, h1, h2⟩ := ih (d.set k v) r2
        refine ⟨(k, v) :: l, .entry hk hv h1, ?_⟩
        have : (do let key ← readString; let value ← readGeneric depth; return (key, value) : Reader _) bs =
            .ok ((k, v), r2) := by
          show Reader.bind _ _ _ = _
          unfold Reader.bind; rw [hk]
          show Reader.bind _ _ _ = _
          unfold Reader.bind; rw [hv]; rfl
        rw [this]
        exact h2

/-- C85, one input: an answer to an outstanding settings request, and nothing else, changes the settings: its decodable
entries are added to them, each key holding the value that came last, the others staying as they were.  If an entry
cannot be decoded, those before it are added all the same. -/
theorem C85_step (env : Ext σ H) (ch : Choice) (s : Host σ) (raw : Bytes) :
    (onInput env ch s raw).1.settings = s.settings ∨
    ∃ id l, s.pending.get? id = some .settings ∧ BringsSettings env.depth raw id l ∧
      ∀ k, (onInput env ch s raw).1.settings.get? k = (lastValue l k).or (s.settings.get? k) := by
  rcases onInput_effect env ch s raw with ⟨_, _, h3, _⟩ | ⟨resp, body, hr, he, _⟩ | ⟨_, _, _, _, _, _, _, _, _, _, _, _, _, h4⟩
  · exact .inl h3
  · rw [onInput_response hr, he]
    simp only [Bool.false_eq_true, if_false]
    unfold handleResponse
    cases hg : s.pending.get? resp.tcp_header.request_id with
    | none => simp only; exact .inl trivial
    | some p =>
      simp only
      cases p with
      | registerRest n =>
        left
        simp only [handleRegistered_state]
      | settings =>
        have e : ∀ t : Host σ, (handleSettings env ch t body).1.settings = (Settings.readFrom env.depth t.settings body).1 := by
          intro t; unfold handleSettings; split <;> rename_i h <;> rw [h]
        simp only [e]
        unfold Settings.readFrom
        cases hv : readVInt body with
        | error e => left; rfl
        | ok q =>
          obtain ⟨n, rest⟩ := q
          right
          obtain ⟨l, h1, h2⟩ := readLoop_entries env.depth n.toNat s.settings rest
          refine ⟨_, l, hg, ⟨resp, body, n, rest, hr, he, rfl, hv, h1⟩, fun k => ?_⟩
          simp only [h2]
          exact get_foldl_set l _ k
  · exact .inl h4

/-- C85, the answer to a settings request: whatever its body, its decodable entries are in the settings afterwards. -/
theorem C85_answer (env : Ext σ H) (ch : Choice) (s : Host σ) (raw : Bytes) {id : Int} {l : List (String × PyVal)}
    (hp : s.pending.get? id = some .settings) (hb : BringsSettings env.depth raw id l) (k : String) :
    (onInput env ch s raw).1.settings.get? k = (lastValue l k).or (s.settings.get? k) := by
  obtain ⟨resp, body, n, rest, hr, he, rfl, hv, hl⟩ := hb
  rw [onInput_response hr, he]
  simp only [Bool.false_eq_true, if_false]
  unfold handleResponse
  simp only [hp]
  have e : ∀ t : Host σ, (handleSettings env ch t body).1.settings = (Settings.readFrom env.depth t.settings body).1 := by
    intro t; unfold handleSettings; split <;> rename_i h <;> rw [h]
  simp only [e]
  unfold Settings.readFrom
  simp only [hv]
  obtain ⟨l', h1, h2⟩ := readLoop_entries env.depth n.toNat s.settings rest
  rw [h2, get_foldl_set]
  have : ∀ {n bs l l'}, Entries env.depth n bs l → Entries env.depth n bs l' → l = l' := by
    intro n bs l l' h
    induction h generalizing l' with
    | all => intro h'; cases h'; rfl
    | entry hk hv _ ih =>
      intro h'
      cases h' with
      | entry hk' hv' hl' =>
        rw [hk] at hk'; cases hk'
        rw [hv] at hv'; cases hv'
        rw [ih hl']
      | badKey hk' => rw [hk] at hk'; cases hk'
      | badValue hk' hv' => rw [hk] at hk'; cases hk'; rw [hv] at hv'; cases hv'
    | badKey hk =>
      intro h'
      cases h' with
      | entry hk' _ _ => rw [hk] at hk'; cases hk'
      | badKey _ => rfl
      | badValue hk' _ => rfl
    | badValue hk hv =>
      intro h'
      cases h' with
      | entry hk' hv' _ => rw [hk] at hk'; cases hk'; rw [hv] at hv'; cases hv'
      | badKey _ => rfl
      | badValue _ _ => rfl
  rw [this hl h1]

theorem lastValue_append {ν : Type} (a b : List (String × ν)) (k : String) :
    lastValue (a ++ b) k = (lastValue b k).or (lastValue a k) := by
  unfold lastValue
  rw [List.reverse_append, List.find?_append]
  cases b.reverse.find? (fun kv => decide (kv.1 = k)) <;> rfl

/-- C85, any number of inputs: at the end every key holds the value that came last for it in the settings answers that
were taken (some of the inputs, in their order), or what it held in the beginning. -/
theorem C85_history (env : Ext σ H) {s0 s : Host σ} {inputs : List Bytes} (h : Handles env s0 inputs s) :
    ∃ used : List (Bytes × List (String × PyVal)), (used.map (·.1)).Sublist inputs ∧
      (∀ p ∈ used, ∃ id, BringsSettings env.depth p.1 id p.2) ∧
      ∀ k, s.settings.get? k = (lastValue (used.map (·.2)).flatten k).or (s0.settings.get? k) := by
  induction h with
  | start => exact ⟨[], .slnil, by simp, fun k => rfl⟩
  | @input inputs s ch raw _ ih =>
    obtain ⟨used, h1, h2, h3⟩ := ih
    rcases C85_step env ch s raw with h | ⟨id, l, _, hb, hl⟩
    · refine ⟨used, h1.trans (List.sublist_append_left _ _), h2, ?_⟩
      rw [h]; exact h3
    · refine ⟨used ++ [(raw, l)], ?_, ?_, fun k => ?_⟩
      · rw [List.map_append]; exact h1.append (List.Sublist.refl _)
      · intro p hp
        rcases List.mem_append.1 hp with hp | hp
        · exact h2 p hp
        · rw [List.mem_singleton.1 hp]; exact ⟨id, hb⟩
      · rw [hl, h3, List.map_append, List.flatten_append, lastValue_append]
        simp only [List.map_cons, List.map_nil, List.flatten_cons, List.flatten_nil, List.append_nil]
        cases lastValue l k <;> rfl

/-- Fewer entries than announced: an exception. -/
theorem readLoop_error {depth n : Nat} {bs : Bytes} {l : List (String × PyVal)} (h : Entries depth n bs l)
    (hl : l.length < n) (d : Dict String PyVal) : ∃ e, (Settings.readLoop depth n d bs).2 = .error e := by
  induction h generalizing d with
  | all => simp at hl
  | @entry n bs r1 r2 k v l hk hv _ ih =>
    unfold Settings.readLoop
    have : (do let key ← readString; let value ← readGeneric depth; return (key, value) : Reader _) bs =
        .ok ((k, v), r2) := by
      show Reader.bind _ _ _ = _
      unfold Reader.bind; rw [hk]
      show Reader.bind _ _ _ = _
      unfold Reader.bind; rw [hv]; rfl
    rw [this]
    exact ih (by simpa using hl) _
  | @badKey n bs e hk =>
    unfold Settings.readLoop
    have : (do let key ← readString; let value ← readGeneric depth; return (key, value) : Reader _) bs = .error e := by
      show Reader.bind _ _ _ = _
      unfold Reader.bind; rw [hk]
    rw [this]; exact ⟨e, rfl⟩
  | @badValue n bs r1 k e hk hv =>
    unfold Settings.readLoop
    have : (do let key ← readString; let value ← readGeneric depth; return (key, value) : Reader _) bs = .error e := by
      show Reader.bind _ _ _ = _
      unfold Reader.bind; rw [hk]
      show Reader.bind _ _ _ = _
      unfold Reader.bind; rw [hv]
    rw [this]; exact ⟨e, rfl⟩

/-- C85, a settings answer that cannot be decoded to the end: the host raises, sends nothing, and does not wait for
another answer. -/
theorem C85_failed (env : Ext σ H) (ch : Choice) (s : Host σ) (hs : Reachable env s) {raw : Bytes}
    {resp : OutboundResponse} {body rest : Bytes} {n : Int} {l : List (String × PyVal)} (h : IsResponse raw resp body)
    (he : resp.tcp_header.isError = false) (hp : s.pending.get? resp.tcp_header.request_id = some .settings)
    (hn : readVInt body = .ok (n, rest)) (hl : Entries env.depth n.toNat rest l) (hbad : l.length < n.toNat) :
    (∃ e, (onInput env ch s raw).2 = .error e) ∧
    ¬ Outstanding (onInput env ch s raw).1 resp.tcp_header.request_id := by
  have e1 : ∃ d e, Settings.readFrom env.depth s.settings body = (d, .error e) := by
    unfold Settings.readFrom
    simp only [hn]
    obtain ⟨e, h⟩ := readLoop_error hl hbad s.settings
    exact ⟨_, e, Prod.ext rfl h⟩
  obtain ⟨d, e, e1⟩ := e1
  have : onInput env ch s raw = ({ s with ids := s.ids + 2, pending := s.pending.erase resp.tcp_header.request_id, settings := d }, .error e) := by
    rw [onInput_response h, he]
    simp only [Bool.false_eq_true, if_false]
    unfold handleResponse
    simp only [hp]
    unfold handleSettings
    simp only [e1]
  rw [this]
  refine ⟨⟨e, rfl⟩, ?_⟩
  unfold Outstanding
  rw [← Dict.get?_eq_none, Dict.get?_erase hs.inv.wf]; simp

/-- An answer that announces two entries, of which the second has an unknown tag. -/
def sampleBadSettings : Bytes := sampleAnswer ⟨[2, 1, 0x61, 5, 1, 1, 0x62, 99], none⟩ 2

theorem sampleBadSettings_parses : ∃ resp, IsResponse sampleBadSettings resp [2, 1, 0x61, 5, 1, 1, 0x62, 99] ∧
    resp.tcp_header.isError = false ∧ resp.tcp_header.request_id = 2 := by
  have hf : ResponseFrame sampleBadSettings ⟨[2, 1, 0x61, 5, 1, 1, 0x62, 99], none⟩ 2 :=
    ⟨sampleOrder, sampleCtx, [], Version.new 2070099, false, false, 0, 0, _, rfl, rfl, by decide +kernel,
      by decide +kernel, by decide +kernel, by decide +kernel⟩
  obtain ⟨_, resp, h1, h2⟩ := response_frame_parses hf []
  rw [List.append_nil, List.append_nil] at h1
  exact ⟨resp, h1, h2⟩

/-- C85: the first entry of an answer with an undecodable second one. -/
example : sampleInited.pending.get? 2 = some .settings ∧
    BringsSettings sampleExt.depth sampleBadSettings 2 [("a", .bool true)] := by
  obtain ⟨resp, h1, h2, h3⟩ := sampleBadSettings_parses
  refine ⟨by decide +kernel, resp, _, 2, [1, 0x61, 5, 1, 1, 0x62, 99], h1, h2, h3, by decide +kernel, ?_⟩
  have k1 : readString [1, 0x61, 5, 1, 1, 0x62, 99] = .ok ("a", [5, 1, 1, 0x62, 99]) := by decide +kernel
  have v1 : readGeneric 3 [5, 1, 1, 0x62, 99] = .ok (.bool true, [1, 0x62, 99]) := by
    have := (rt_generic (.bool true) 3 (by simp [GenericOK]) (by simp [nesting])).2 [1, 0x62, 99]
    have e : (writeGeneric (.bool true)).out = [5, 1] := by decide +kernel
    rw [e] at this; exact this
  have k2 : readString [1, 0x62, 99] = .ok ("b", [99]) := by decide +kernel
  have v2 : (readGeneric 3 [99]).toOption = none := by decide +kernel
  cases h : readGeneric 3 [99] with
  | ok p => rw [h] at v2; cases v2
  | error e => exact .entry k1 v1 (.badValue k2 h)

/-- C85, executed: the entry is in the settings, an exception is raised, and nothing is awaited any more. -/
example :
    let r := onInput sampleExt sampleChoice sampleInited sampleBadSettings
    r.1.settings.map (·.1) = ["a"] ∧ r.2.toOption = none ∧ r.1.pending.map (·.1) = [3] := by decide +kernel

theorem sampleBad_entries : Entries sampleExt.depth 2 [1, 0x61, 5, 1, 1, 0x62, 99] [("a", .bool true)] := by
  have k1 : readString [1, 0x61, 5, 1, 1, 0x62, 99] = .ok ("a", [5, 1, 1, 0x62, 99]) := by decide +kernel
  have v1 : readGeneric 3 [5, 1, 1, 0x62, 99] = .ok (.bool true, [1, 0x62, 99]) := by
    have := (rt_generic (.bool true) 3 (by simp [GenericOK]) (by simp [nesting])).2 [1, 0x62, 99]
    have e : (writeGeneric (.bool true)).out = [5, 1] := by decide +kernel
    rw [e] at this; exact this
  have k2 : readString [1, 0x62, 99] = .ok ("b", [99]) := by decide +kernel
  have v2 : (readGeneric 3 [99]).toOption = none := by decide +kernel
  cases h : readGeneric 3 [99] with
  | ok p => rw [h] at v2; cases v2
  | error e => exact .entry k1 v1 (.badValue k2 h)

theorem sampleBad_brings : BringsSettings sampleExt.depth sampleBadSettings 2 [("a", .bool true)] := by
  obtain ⟨resp, h1, h2, h3⟩ := sampleBadSettings_parses
  refine ⟨resp, _, 2, [1, 0x61, 5, 1, 1, 0x62, 99], h1, h2, h3, by decide +kernel, ?_⟩
  exact sampleBad_entries

example : ∃ resp, IsResponse sampleBadSettings resp [2, 1, 0x61, 5, 1, 1, 0x62, 99] ∧
    (∃ e, (onInput sampleExt sampleChoice sampleInited sampleBadSettings).2 = .error e) ∧
    ¬ Outstanding (onInput sampleExt sampleChoice sampleInited sampleBadSettings).1 resp.tcp_header.request_id := by
  obtain ⟨resp, h1, h2, h3⟩ := sampleBadSettings_parses
  exact ⟨resp, h1, C85_failed sampleExt sampleChoice sampleInited sampleInited_reachable h1 h2
    (by rw [h3]; decide +kernel) (n := 2) (by decide +kernel) sampleBad_entries (by decide)⟩

example : ∃ l, BringsSettings sampleExt.depth sampleBadSettings 2 l ∧ l = [("a", .bool true)] := ⟨_, sampleBad_brings, rfl⟩
example := C85_answer sampleExt sampleChoice sampleInited sampleBadSettings (by decide +kernel) sampleBad_brings "a"
example := C85_history sampleExt (s0 := sampleInited) (inputs := [sampleBadSettings, sampleRestFrame])
  (.input sampleChoice _ (.input sampleChoice _ .start))

end Verif
