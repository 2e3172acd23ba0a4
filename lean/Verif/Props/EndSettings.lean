import Verif.Props.Numbers
import Verif.Props.Environment
/-!
# C132: what the node configured is what a typed setting gives
-/

namespace Verif
open Py StreamInput StreamOutput Spec

variable {σ H : Type} (py : Interp)

theorem lastValue_none {ν : Type} {l : List (String × ν)} {k : String} (h : k ∉ l.map Prod.fst) : lastValue l k = none := by
  unfold lastValue
  rw [Option.map_eq_none_iff, List.find?_eq_none]
  intro x hx e
  exact h (List.mem_map.2 ⟨x, List.mem_reverse.1 hx, by simpa using e⟩)

/-- Inputs that do not mention a key leave what is configured for it. -/
theorem settings_unmentioned (env : Ext σ H) {s s' : Host σ} {inputs : List Bytes} (he : Handles env s inputs s') {key : String}
    (hq : ∀ raw ∈ inputs, ∀ id l, BringsSettings env.depth raw id l → key ∉ l.map Prod.fst) :
    s'.settings.get? key = s.settings.get? key := by
  obtain ⟨used, h1, h2, h3⟩ := C85_history env he
  have : lastValue (used.map (·.2)).flatten key = none := by
    apply lastValue_none
    intro hm
    obtain ⟨x, hx, rfl⟩ := List.mem_map.1 hm
    obtain ⟨l, hl, hxl⟩ := List.mem_flatten.1 hx
    obtain ⟨p, hp, rfl⟩ := List.mem_map.1 hl
    obtain ⟨id, hb⟩ := h2 p hp
    exact hq p.1 (h1.subset (List.mem_map.2 ⟨p, hp, rfl⟩)) id p.2 hb (List.mem_map.2 ⟨x, hxl, rfl⟩)
  rw [h3, this]; rfl

/-- **C132**.  The host waits for settings; an answer brings a text for the key (the last, if it brings several); then come any inputs
of which none that brings settings mentions the key.  From then on each setting declared for the key gives what the text says, read
from any `Settings()` of the process. -/
theorem C132_configured (env : Ext σ H) (ch : Choice) (s s' : Host σ) {raw : Bytes} {id : Int} {l : List (String × PyVal)}
    {inputs : List Bytes} {key text : String} (hp : s.pending.get? id = some .settings) (hb : BringsSettings env.depth raw id l)
    (ht : lastValue l key = some (.str text)) (hne : text ≠ "") (he : Handles env (onInput env ch s raw).1 inputs s')
    (hq : ∀ raw' ∈ inputs, ∀ id' l', BringsSettings env.depth raw' id' l' → key ∉ l'.map Prod.fst) (properties : List Property) :
    (∀ default min max st, IntegerSetting py key default min max properties = .ok st ∨
        LongSetting py key default min max properties = .ok st →
      ∀ n, st.get py s'.settings = .ok n ↔ IsNumber py.u text n ∧ min ≤ n ∧ n ≤ max) ∧
    (∀ default (v : Version), (VersionSetting py key default properties).get py s'.settings = .ok v ↔ IsNumber py.u text v.id) ∧
    (∀ default min max st, TimeValueSetting py key default min max properties = .ok st → ∀ v, st.get py s'.settings = .ok v ↔
      (∃ n : Nat, v.duration = n ∧ Amount py.u (py.u.lower text) n (timeSuffix v.time_unit)) ∧ TimeWithin min max v) ∧
    (∀ default min max st, ByteSizeValueSetting py key default min max properties = .ok st → ∀ v, st.get py s'.settings = .ok v ↔
      (∃ (n : Nat) (unit : String), v.size = n ∧ Amount py.u (py.u.lower text) n unit ∧
        (unit = byteSuffix v.unit ∨ (unit ≠ "" ∧ unit ++ "b" = byteSuffix v.unit))) ∧ SizeWithin min max v) ∧
    (∀ default min max st, FloatSetting py key default min max properties = .ok st ∨
        DoubleSetting py key default min max properties = .ok st →
      ∀ x, st.get py s'.settings = .ok x ↔ py.float.parse text = .ok x ∧ min.le x = true ∧ x.le max = true) ∧
    (∀ default, (BooleanSetting key default properties).get py s'.settings = .ok (decide (py.u.lower text = "true"))) ∧
    (∀ default validator st, StringSetting key default validator properties = .ok st → ∀ v, st.get py s'.settings = .ok v ↔
      v = text ∧ ∀ f, validator = some f → f text = .ok ()) := by
  have h : s'.settings.get? key = some (.str text) := by
    rw [settings_unmentioned env he hq, C85_answer env ch s raw hp hb key, ht]; rfl
  refine ⟨fun default min max st hc n => (C131_integer py hc h hne).1 n, fun default v => (C131_version py key default properties h hne).1 v,
    fun default min max st hc v => C131_time py hc h hne v, fun default min max st hc v => C131_size py hc h hne v, ?_, ?_, ?_⟩
  · intro default min max st hc x
    have key' : ∃ type, FloatingSetting py type key default min max properties = .ok st := by
      rcases hc with hc | hc
      · exact ⟨_, hc⟩
      · exact ⟨_, hc⟩
    obtain ⟨type, hc⟩ := key'
    obtain ⟨rfl, -, -⟩ := floatingSetting_ok py hc
    rw [C53_text_partial py _ _ text h hne]
    change (py.float.parse text >>= fun v => FloatParser.boundsCheck ⟨min, max, key, false⟩ v) = _ ↔ _
    cases e : py.float.parse text with
    | error a => rw [Except.error_bind]; simp
    | ok v =>
      rw [Except.ok_bind]
      unfold FloatParser.boundsCheck
      dsimp only
      by_cases hb' : min.le v = true ∧ v.le max = true
      · rw [if_neg (by simpa using hb')]
        constructor
        · intro q; cases q; exact ⟨rfl, hb'⟩
        · rintro ⟨q, -⟩; exact q
      · rw [if_pos (by simpa using hb')]
        constructor
        · intro q; cases q
        · rintro ⟨q, q'⟩; cases q; exact absurd q' hb'
  · intro default
    rw [C53_text_partial py _ _ text h hne]
    change Except.ok (py.u.lower text == "true") = _
    congr 1
  · intro default validator st hc v
    obtain ⟨rfl, -⟩ := stringSetting_ok hc
    rw [C53_text_partial py _ _ text h hne]
    cases validator with
    | none =>
      change Except.ok text = _ ↔ _
      constructor
      · intro q; cases q; exact ⟨rfl, by simp⟩
      · rintro ⟨rfl, -⟩; rfl
    | some f =>
      change (f text >>= fun _ => Except.ok text) = _ ↔ _
      cases e : f text with
      | error a => rw [Except.error_bind]; simp [e]
      | ok u =>
        rw [Except.ok_bind]
        constructor
        · intro q; cases q; exact ⟨rfl, by rintro g ⟨⟩; exact e⟩
        · rintro ⟨rfl, -⟩; rfl

/-- An answer that brings the text ` -1_000` and a newline for `n`. -/
def sampleNumberAnswer : Bytes :=
  sampleAnswer ⟨[1, 1, 0x6e, 0, 8, 0x20, 0x2d, 0x31, 0x5f, 0x30, 0x30, 0x30, 0x0a], none⟩ 2

theorem sampleNumber_entries : Entries sampleExt.depth 1 [1, 0x6e, 0, 8, 0x20, 0x2d, 0x31, 0x5f, 0x30, 0x30, 0x30, 0x0a]
    [("n", .str " -1_000\n")] := by
  have k1 : readString [1, 0x6e, 0, 8, 0x20, 0x2d, 0x31, 0x5f, 0x30, 0x30, 0x30, 0x0a] =
      .ok ("n", [0, 8, 0x20, 0x2d, 0x31, 0x5f, 0x30, 0x30, 0x30, 0x0a]) := by decide +kernel
  have v1 : readGeneric 3 [0, 8, 0x20, 0x2d, 0x31, 0x5f, 0x30, 0x30, 0x30, 0x0a] = .ok (.str " -1_000\n", []) := by
    have h := (rt_generic (.str " -1_000\n") 3 (by simp [GenericOK]; decide +kernel) (by simp [nesting])).2 []
    have e : (writeGeneric (.str " -1_000\n")).out = [0, 8, 0x20, 0x2d, 0x31, 0x5f, 0x30, 0x30, 0x30, 0x0a] := by decide +kernel
    rw [e] at h; exact h
  exact .entry k1 v1 (.all _)

theorem sampleNumber_brings : BringsSettings sampleExt.depth sampleNumberAnswer 2 [("n", .str " -1_000\n")] := by
  have hf : ResponseFrame sampleNumberAnswer
      ⟨[1, 1, 0x6e, 0, 8, 0x20, 0x2d, 0x31, 0x5f, 0x30, 0x30, 0x30, 0x0a], none⟩ 2 :=
    ⟨sampleOrder, sampleCtx, [], Version.new 2070099, false, false, 0, 0, _, rfl, rfl, by decide +kernel,
      by decide +kernel, by decide +kernel, by decide +kernel⟩
  obtain ⟨_, resp, h1, h2, h3⟩ := response_frame_parses hf []
  rw [List.append_nil, List.append_nil] at h1
  exact ⟨resp, _, 1, _, h1, h2, h3, by decide +kernel, sampleNumber_entries⟩

/-- A request brings no settings. -/
theorem request_brings_none {raw : Bytes} {req : OutboundRequest} {b : Bytes} (h : IsRequest raw req b) (depth : Nat) (id : Int)
    (l : List (String × PyVal)) : ¬ BringsSettings depth raw id l := by
  rintro ⟨resp, body, n, rest, hr, -⟩
  exact h.not_response hr

/-- C132: settings for `n` arrive, then a REST request; the integer, the version and the string setting for `n`. -/
example :=
  let c := C132_configured sampleInterp sampleExt sampleChoice sampleInited _ (key := "n") (by decide +kernel) sampleNumber_brings
    (text := " -1_000\n") rfl (by decide) (inputs := [sampleRestFrame]) (.input sampleChoice _ .start)
    (fun raw' hm id' l' hb => by
      rw [List.mem_singleton] at hm; subst hm; exact absurd hb (request_brings_none sampleRest_isRequest _ _ _)) []
  And.intro ((c.1 5 (-9999) 9 _ (.inl rfl) (-1000)).2 ⟨sampleNumber, by decide, by decide⟩)
    (And.intro ((c.2.1 ⟨0⟩ ⟨-1000⟩).2 sampleNumber) ((c.2.2.2.2.2.2 "" none _ rfl " -1_000\n").2 ⟨rfl, by simp⟩))

end Verif
