import Verif.Py.Basic
import Verif.Py.Str
import Verif.Py.Dict
/-!
# Specification: what "round-trips" means, and which values fit the wire format
-/

namespace Verif

/-- `w` is written without exception, and `r`, given what `w` wrote followed by anything,
returns `a` and stops exactly where `w` ended.  The common shape of all round-trip theorems. -/
def RoundTrips {α : Type} (w : W) (r : Reader α) (a : α) : Prop :=
  w.err = none ∧ ∀ rest, r (w.out ++ rest) = .ok (a, rest)

namespace RoundTrips

theorem seq {α β} {w w' : W} {r : Reader α} {a : α} {f : α → Reader β} {b : β}
    (h : RoundTrips w r a) (h' : RoundTrips w' (f a) b) : RoundTrips (w ++ w') (r >>= f) b := by
  refine ⟨by simp [h.1, h'.1], fun rest => ?_⟩
  rw [W.out_append h.1, List.append_assoc, Reader.bind_ok (h.2 _), h'.2]

theorem pure {α} (a : α) : RoundTrips W.nil (pure a) a := ⟨rfl, fun _ => rfl⟩

theorem map {α β} {w : W} {r : Reader α} {a : α} (g : α → β) (h : RoundTrips w r a) :
    RoundTrips w (r >>= fun x => Pure.pure (g x)) (g a) := by
  have := h.seq (f := fun x => Pure.pure (g x)) (RoundTrips.pure (g a))
  simpa using this

theorem forEach {α β} {wf : α → W} {r : Reader β} {g : α → β} {l : List α}
    (h : ∀ x ∈ l, RoundTrips (wf x) r (g x)) :
    RoundTrips (W.forEach wf l) (r.times l.length) (l.map g) := by
  induction l with
  | nil => exact RoundTrips.pure _
  | cons x xs ih =>
    have h1 := h x (by simp)
    have h2 := ih (fun y hy => h y (by simp [hy]))
    exact h1.seq (h2.map (g x :: ·))

end RoundTrips

/-- A string whose encoding fits the decoder's limit of 2^31 bytes (stream_input.py:164). -/
def StrOK (s : String) : Prop := (Py.utf8 s).length ≤ 2 ^ 31

/-- A string array that fits: at most 2^31 elements, each of which fits. -/
def StrsOK (l : List String) : Prop := l.length ≤ 2 ^ 31 ∧ ∀ s ∈ l, StrOK s

/-- A string-to-string dict that fits: a real dict (distinct keys) with fewer than 2^35 entries
(the v_int limit), all strings fitting. -/
def StrDictOK (d : Py.Dict String String) : Prop :=
  d.WF ∧ d.length < 2 ^ 35 ∧ ∀ kv ∈ d, StrOK kv.1 ∧ StrOK kv.2

/-- A dict from strings to lists (or sets) of strings that fits. -/
def StrsDictOK (d : Py.Dict String (List String)) : Prop :=
  d.WF ∧ d.length < 2 ^ 35 ∧ ∀ kv ∈ d, StrOK kv.1 ∧ StrsOK kv.2

/-- A dict from strings to sets of strings: the sets are duplicate-free. -/
def StrSetDictOK (d : Py.Dict String (List String)) : Prop :=
  StrsDictOK d ∧ ∀ kv ∈ d, kv.2.Nodup

instance (s : String) : Decidable (StrOK s) := inferInstanceAs (Decidable (_ ≤ _))
instance (l : List String) : Decidable (StrsOK l) := inferInstanceAs (Decidable (_ ∧ _))
instance (d : Py.Dict String String) : Decidable (StrDictOK d) :=
  inferInstanceAs (Decidable (_ ∧ _ ∧ _))
instance (d : Py.Dict String (List String)) : Decidable (StrsDictOK d) :=
  inferInstanceAs (Decidable (_ ∧ _ ∧ _))
instance (d : Py.Dict String (List String)) : Decidable (StrSetDictOK d) :=
  inferInstanceAs (Decidable (_ ∧ _))

end Verif
