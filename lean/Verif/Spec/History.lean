import Verif.Spec.Host
/-!
# Specification: histories of a host process

A process serves one extension; all its connections call the same `on_input` (C50), so the host's
history is a sequence of inputs.  Between inputs other code of the process (the extension itself, the
user's program) may build messages of its own, which advances the process-wide id counter, fill
`Settings` objects, and change the extension's state.
-/

namespace Verif
open Py

variable {σ H : Type}

/-- From state `s` the process can get to the other state by handling any number of inputs that
satisfy `P`, with any other activity in between. -/
inductive Evolves (env : Ext σ H) (P : Bytes → Prop) (s : Host σ) : Host σ → Prop
  | refl : Evolves env P s s
  | input {s' : Host σ} (ch : Choice) (raw : Bytes) (h : Evolves env P s s') (hp : P raw) :
      Evolves env P s (onInput env ch s' raw).1
  | other {s' : Host σ} (n : Nat) (settings : Dict String PyVal) (x : σ) (h : Evolves env P s s')
      (hn : s'.ids ≤ n) : Evolves env P s { s' with ids := n, settings := settings, ext := x }

/-- A host just set up by `serve(extension)`: nothing outstanding.  (The counter and the settings
need not be fresh: the process may have done other things before.) -/
def Started (s : Host σ) : Prop := s.pending = [] ∧ s.init = none

/-- The states a host process can be in. -/
def Reachable (env : Ext σ H) (s : Host σ) : Prop :=
  ∃ s0, Started s0 ∧ Evolves env (fun _ => True) s0 s

/-- The input is a non-error response with this id. -/
def Responds (raw : Bytes) (id : Int) : Prop :=
  ∃ resp body, IsResponse raw resp body ∧ resp.tcp_header.isError = false ∧ resp.tcp_header.request_id = id

/-- The input is an initialise-extension request. -/
def Initialises (raw : Bytes) : Prop :=
  ∃ req body, IsRequest raw req body ∧ req.action = "internal:discovery/extensions"

/-- The host waits for a response with this id. -/
def Outstanding (s : Host σ) (id : Int) : Prop := id ∈ s.pending.map (·.1)

/-- The input is other traffic while an initialisation waits for the answers to `a` and `b`: not
another initialisation, and not a response with one of these ids (error responses with these ids are
allowed). -/
def OtherTraffic (a b : Int) (raw : Bytes) : Prop :=
  ¬ Initialises raw ∧ ¬ Responds raw a ∧ ¬ Responds raw b

end Verif
