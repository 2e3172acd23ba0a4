import Verif.Props.PassOn
import Verif.Props.Environment
/-!
# C129: the settings of a process can be passed on
-/

namespace Verif
open Py StreamInput StreamOutput

variable {σ H : Type}

/-- `SettingsOK` without the bound on the number of entries. -/
theorem settings_history (env : Ext σ H) {s0 s : Host σ} {inputs : List Bytes} (h : Handles env s0 inputs s)
    (hw : s0.settings.WF) (h0 : ∀ kv ∈ s0.settings, StrOK kv.1 ∧ GenericOK kv.2 ∧ nesting kv.2 ≤ env.depth) :
    s.settings.WF ∧ ∀ kv ∈ s.settings, StrOK kv.1 ∧ GenericOK kv.2 ∧ nesting kv.2 ≤ env.depth := by
  induction h with
  | start => exact ⟨hw, h0⟩
  | @input inputs s ch raw _ ih =>
    obtain ⟨w, ok⟩ := ih
    rcases onInput_effect env ch s raw with ⟨_, _, h3, _⟩ | ⟨resp, body, hr, he, _⟩ | ⟨_, _, _, _, _, _, _, _, _, _, _, _, _, h4⟩
    · rw [h3]; exact ⟨w, ok⟩
    · rw [onInput_response hr, he]
      simp only [Bool.false_eq_true, if_false]
      unfold handleResponse
      cases hg : s.pending.get? resp.tcp_header.request_id with
      | none => simp only; exact ⟨w, ok⟩
      | some p =>
        simp only
        cases p with
        | registerRest n => simp only [handleRegistered_state]; exact ⟨w, ok⟩
        | settings =>
          have e : ∀ t : Host σ, (handleSettings env ch t body).1.settings = (Settings.readFrom env.depth t.settings body).1 := by
            intro t; unfold handleSettings; split <;> rename_i h <;> rw [h]
          simp only [e]
          unfold Settings.readFrom
          cases hv : readVInt body with
          | error e => exact ⟨w, ok⟩
          | ok q =>
            obtain ⟨n, rest⟩ := q
            have := settings_readLoop_ok env.depth n.toNat s.settings rest w ok
            exact ⟨this.1, this.2.1⟩
    · rw [h4]; exact ⟨w, ok⟩

/-- C129, the settings of a process, after any history of inputs from any peers, well-formed or not, from no settings: they can be
written, and a process without settings that reads what was written has the same. -/
theorem C129_process (env : Ext σ H) {s0 s : Host σ} {inputs : List Bytes} (h : Handles env s0 inputs s) (h0 : s0.settings = [])
    (hl : s.settings.length < 2 ^ 35) :
    (Settings.writeToWithin env.depth s.settings).err = none ∧
    ∀ rest, Settings.readFrom env.depth [] ((Settings.writeToWithin env.depth s.settings).out ++ rest) = (s.settings, .ok rest) := by
  have ok := settings_history env h (by rw [h0]; exact List.nodup_nil) (by rw [h0]; intro kv hkv; cases hkv)
  have e : (Settings.readFrom env.depth s.settings [0]).1 = s.settings := rfl
  have := C129_settings env.depth s.settings ⟨ok.1, hl, ok.2⟩ [0] (by rw [e]; exact hl)
  rw [e] at this
  exact this.2

/-- Settings of which the second cannot be read, then a REST request: the first one stays, and can be passed on. -/
example := C129_process sampleExt (s0 := sampleInited) (inputs := [sampleBadSettings, sampleRestFrame])
  (.input sampleChoice _ (.input sampleChoice _ .start))
  (List.map_eq_nil_iff.1 (show sampleInited.settings.map Prod.fst = [] by decide +kernel)) (by decide +kernel)

end Verif
