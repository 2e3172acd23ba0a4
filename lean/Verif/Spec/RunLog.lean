import Verif.Model.RunLog
import Verif.Spec.Log
import Verif.Spec.Server
/-!
# Specification: what the log of a run should tell
-/

namespace Verif
open Py

variable {σ H : Type}

/-- The record of some bytes that were read. -/
def readShown (data : Bytes) : LogRecord :=
  ⟨.debug, "< #" ++ bytesRepr data ++ ", size=" ++ toString data.length ++ " byte(s)"⟩

/-- The record of some bytes that are sent. -/
def sentShown (data : Bytes) : LogRecord :=
  ⟨.debug, "> #" ++ bytesRepr data ++ ", size=" ++ toString data.length ++ " byte(s)"⟩

/-- The record of a new connection. -/
def acceptShown (text : String) : LogRecord := ⟨.debug, "< connection=" ++ text⟩

open Classical in
/-- The records of the log that are of one kind, in order. -/
noncomputable def recordsOf {α : Type} (kind : α → LogRecord) (l : List LogRecord) : List LogRecord :=
  l.filter fun r => decide (∃ x, r = kind x)

/-- The chunks read in a run, from whatever connection, in order. -/
def chunksRead : List (Event σ) → List Bytes
  | [] => []
  | .recv _ _ raw :: es => raw :: chunksRead es
  | _ :: es => chunksRead es

/-- The connections accepted in a run, in order. -/
def accepted : List (Event σ) → List Nat
  | [] => []
  | .accept c :: es => c :: accepted es
  | _ :: es => accepted es

/-- What is answered to the event: nothing, or one sequence of bytes. -/
def answeredBy (env : Ext σ H) (s : Host σ) : Event σ → List Bytes
  | .recv _ ch raw =>
    match (onInput env ch s raw).2 with
    | .ok (some out) => [out]
    | _ => []
  | _ => []

/-- All answers of a run, to whatever connection, in order. -/
def answered (env : Ext σ H) (s : Host σ) : List (Event σ) → List Bytes
  | [] => []
  | e :: es => answeredBy env s e ++ answered env (hostAfter env s [e]) es

/-- How many chunks of a run are not answered. -/
def unanswered (env : Ext σ H) (s : Host σ) : List (Event σ) → Nat
  | [] => 0
  | .recv c ch raw :: es =>
    (if answeredBy env s (.recv c ch raw) = [] then 1 else 0) + unanswered env (onInput env ch s raw).1 es
  | e :: es => unanswered env (hostAfter env s [e]) es

/-- How many sends of a run fail. -/
def failedSends : List (Event σ) → Nat
  | [] => 0
  | .sendFail _ :: es => 1 + failedSends es
  | _ :: es => failedSends es

/-- The same event at another connection. -/
def Event.at (f : Nat → Nat) : Event σ → Event σ
  | .accept c => .accept (f c)
  | .recv c ch raw => .recv (f c) ch raw
  | .sent c n => .sent (f c) n
  | .sendFail c => .sendFail (f c)
  | .eof c => .eof (f c)
  | .other n d x => .other n d x
  | .stop => .stop
  | .cancelled => .cancelled
  | .acceptFail => .acceptFail

/-- The two connections exchanged. -/
def exchanged (c d x : Nat) : Nat := if x = c then d else if x = d then c else x

end Verif
