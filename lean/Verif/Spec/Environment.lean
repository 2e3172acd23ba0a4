import Verif.Spec.History
import Verif.Spec.Collections
/-!
# Specification: the environment settings an extension sees

Entries of a settings answer are read one after the other; when one cannot be decoded the ones before it count.
-/

namespace Verif
open Py StreamInput

variable {σ H : Type}

/-- The entries that can be decoded from the front of the bytes, at most `n`: `Entries depth n bytes l`. -/
inductive Entries (depth : Nat) : Nat → Bytes → List (String × PyVal) → Prop
  | all (bs : Bytes) : Entries depth 0 bs []
  | entry {n : Nat} {bs r1 r2 : Bytes} {k : String} {v : PyVal} {l : List (String × PyVal)}
      (hk : readString bs = .ok (k, r1)) (hv : readGeneric depth r1 = .ok (v, r2)) (hl : Entries depth n r2 l) :
      Entries depth (n + 1) bs ((k, v) :: l)
  | badKey {n : Nat} {bs : Bytes} {e : Err} (hk : readString bs = .error e) : Entries depth (n + 1) bs []
  | badValue {n : Nat} {bs r1 : Bytes} {k : String} {e : Err} (hk : readString bs = .ok (k, r1))
      (hv : readGeneric depth r1 = .error e) : Entries depth (n + 1) bs []

/-- The input is a non-error response with this id whose body announces a number of entries, of which those in `l`
can be decoded. -/
def BringsSettings (depth : Nat) (raw : Bytes) (id : Int) (l : List (String × PyVal)) : Prop :=
  ∃ resp body n rest, IsResponse raw resp body ∧ resp.tcp_header.isError = false ∧ resp.tcp_header.request_id = id ∧
    readVInt body = .ok (n, rest) ∧ Entries depth n.toNat rest l

/-- The host handles these inputs one after the other, and nothing else in the process fills `Settings` objects. -/
inductive Handles (env : Ext σ H) (s0 : Host σ) : List Bytes → Host σ → Prop
  | start : Handles env s0 [] s0
  | input {l : List Bytes} {s : Host σ} (ch : Choice) (raw : Bytes) (h : Handles env s0 l s) :
      Handles env s0 (l ++ [raw]) (onInput env ch s raw).1

end Verif
