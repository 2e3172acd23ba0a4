import Verif.Model.Server
import Verif.Spec.History
/-!
# Specification: the sequential server

What the events would give if there were no concurrency at all: the chunks are handled one after
another, in the order in which they were read, each answered at once.
-/

namespace Verif
open Py

variable {σ H : Type}

/-- The host after handling the chunks of the run one after another. -/
def hostAfter (env : Ext σ H) (s : Host σ) : List (Event σ) → Host σ
  | [] => s
  | .recv _ ch raw :: es => hostAfter env (onInput env ch s raw).1 es
  | .other n d x :: es => hostAfter env { s with ids := n, settings := d, ext := x } es
  | _ :: es => hostAfter env s es

/-- What the host answers to one chunk: no bytes if it has no answer or raises. -/
def answer (env : Ext σ H) (ch : Choice) (s : Host σ) (raw : Bytes) : Bytes :=
  match (onInput env ch s raw).2 with
  | .ok (some out) => out
  | _ => []

/-- The answers to the chunks read from connection `c`, in the order in which they were read. -/
def answersTo (env : Ext σ H) (c : Nat) (s : Host σ) : List (Event σ) → List Bytes
  | [] => []
  | .recv d ch raw :: es =>
    if d = c then answer env ch s raw :: answersTo env c (onInput env ch s raw).1 es
    else answersTo env c (onInput env ch s raw).1 es
  | .other n d x :: es => answersTo env c { s with ids := n, settings := d, ext := x } es
  | _ :: es => answersTo env c s es

/-- The number of chunks read from `c`. -/
def reads (c : Nat) : List (Event σ) → Nat
  | [] => 0
  | .recv d _ _ :: es => (if d = c then 1 else 0) + reads c es
  | _ :: es => reads c es

/-- The number of connections accepted. -/
def accepts : List (Event σ) → Nat
  | [] => 0
  | .accept _ :: es => 1 + accepts es
  | _ :: es => accepts es

/-- The connection is open: its handler will read again or is sending. -/
def Open (S : Server σ) (c : Nat) : Prop :=
  ∃ k, S.conns c = some k ∧ k.phase ≠ .closed

/-- The bytes sent on the connection so far. -/
def sentOn (S : Server σ) (c : Nat) : Bytes :=
  match S.conns c with
  | some k => k.wire
  | none => []

/-- The bytes the handler of the connection is about to send. -/
def toSend (S : Server σ) (c : Nat) : Bytes :=
  match S.conns c with
  | some ⟨.sending rest, _⟩ => rest
  | _ => []

end Verif
