import Verif.Spec.Domains
import Verif.Lemmas.Header
import Verif.Model.Message
import Verif.Props.Collections
/-! Contexts and message frames: what is written, and reading it back. -/

namespace Verif
open Py StreamInput StreamOutput

instance (c : ThreadContext) : Decidable (CtxOK c) := inferInstanceAs (Decidable (_ ∧ _))

/-- The context with each set listed in iteration order: the same context (sets are unordered). -/
def ThreadContext.iter (ho : HashOrder) (c : ThreadContext) : ThreadContext :=
  { c with response_headers := c.response_headers.map fun kv => (kv.1, ho.order kv.2) }

theorem strSetDictOK_iter (ho : HashOrder) {d : Dict String (List String)} (h : StrSetDictOK d) :
    StrSetDictOK (d.map fun kv => (kv.1, ho.order kv.2)) := by
  obtain ⟨⟨h1, h2, h3⟩, h4⟩ := h
  refine ⟨⟨?_, by simpa using h2, ?_⟩, ?_⟩
  · unfold Dict.WF at h1 ⊢; rw [List.map_map]; exact h1
  · intro kv hkv
    simp only [List.mem_map] at hkv
    obtain ⟨kv', hm, rfl⟩ := hkv
    obtain ⟨a, b, c⟩ := h3 kv' hm
    refine ⟨a, ?_, ?_⟩
    · have := (ho.perm kv'.2).length_eq; simp only; omega
    · intro s hs; exact c s ((ho.perm kv'.2).mem_iff.1 hs)
  · intro kv hkv
    simp only [List.mem_map] at hkv
    obtain ⟨kv', hm, rfl⟩ := hkv
    exact (ho.perm kv'.2).nodup_iff.2 (h4 kv' hm)

theorem ctx_writeTo_err (ho : HashOrder) (c : ThreadContext) : (c.writeTo ho).err = none := by
  unfold ThreadContext.writeTo; simp

theorem rt_ctx (ho : HashOrder) {c : ThreadContext} (h : CtxOK c) :
    RoundTrips (c.writeTo ho) ThreadContext.readFrom (c.iter ho) := by
  have key : ∀ d : Dict String (List String), writeStringSetDict d = writeStringArrayDict d := fun d => rfl
  unfold ThreadContext.writeTo ThreadContext.readFrom
  refine (rt_stringDict h.1).seq ?_
  have := (rt_stringSetDict (strSetDictOK_iter ho h.2)).map fun res =>
    (⟨c.request_headers, res⟩ : ThreadContext)
  rw [key] at this
  exact this

theorem sum_perm {l l' : List Nat} (h : l.Perm l') : l.sum = l'.sum := by
  induction h with
  | nil => rfl
  | cons x _ ih => simp [ih]
  | swap x y l => simp; omega
  | trans _ _ ih1 ih2 => exact ih1.trans ih2

theorem ctx_iter_size (ho : HashOrder) (c : ThreadContext) : (c.iter ho).size = c.size := by
  unfold ThreadContext.size ThreadContext.iter
  have e : ∀ kv : String × List String,
      stringSize kv.1 + (vIntSize (ho.order kv.2).length + ((ho.order kv.2).map stringSize).sum) =
      stringSize kv.1 + (vIntSize kv.2.length + (kv.2.map stringSize).sum) := fun kv => by
    rw [(ho.perm kv.2).length_eq, sum_perm ((ho.perm kv.2).map stringSize)]
  rw [stringCollDictSize_eq, stringCollDictSize_eq, List.length_map, List.map_map]
  simp only [Function.comp_def, e]

theorem ctxSized_iter (ho : HashOrder) {c : ThreadContext} (h : CtxSized c) : CtxSized (c.iter ho) := by
  refine ⟨h.1, ?_⟩
  intro kv hkv
  simp only [ThreadContext.iter, List.mem_map] at hkv
  obtain ⟨kv', hm, rfl⟩ := hkv
  obtain ⟨a, b⟩ := h.2 kv' hm
  exact ⟨a, fun s hs => b s ((ho.perm kv'.2).mem_iff.1 hs)⟩

/-- The bytes of a context are as many as predicted, if its strings are sized right. -/
theorem ctx_writeTo_length (ho : HashOrder) {c : ThreadContext} (h : CtxSized c) :
    (c.writeTo ho).out.length = c.size := by
  have hs := ctxSized_iter ho h
  have := C14_partial _ _ hs.1 hs.2
  rw [← ctx_iter_size ho c]
  unfold ThreadContext.writeTo ThreadContext.size
  rw [W.out_append (by simp), List.length_append, this.1, this.2]
  rfl

theorem writeOpt_eq (b : Option Bytes) : OutboundMessage.writeOpt b = W.emit (b.getD []) := by
  unfold OutboundMessage.writeOpt
  cases b with
  | none => rfl
  | some b => cases b <;> rfl

end Verif
