import Verif.Spec.History
/-!
# Specification: what is seen on the wire over a whole history

`History env s0 l s`: from state `s0` the process got to `s` by handling the inputs of the events of
`l`, in order, with any other activity in between; each event records what came in and what went
out (or the exception).
-/

namespace Verif
open Py

variable {σ H : Type}

/-- One input and what the host did with it: bytes to send, nothing, or an exception. -/
structure Exchange where
  input : Bytes
  output : Except Err (Option Bytes)

inductive History (env : Ext σ H) (s0 : Host σ) : List Exchange → Host σ → Prop
  | start : History env s0 [] s0
  | input {l : List Exchange} {s : Host σ} (ch : Choice) (raw : Bytes) (h : History env s0 l s) :
      History env s0 (l ++ [⟨raw, (onInput env ch s raw).2⟩]) (onInput env ch s raw).1
  | other {l : List Exchange} {s : Host σ} (n : Nat) (settings : Dict String PyVal) (x : σ) (h : History env s0 l s)
      (hn : s.ids ≤ n) : History env s0 l { s with ids := n, settings := settings, ext := x }

/-- The host sent a request with this id and action. -/
def Exchange.SendsRequest (e : Exchange) (id : Int) (action : String) : Prop :=
  ∃ out q body, e.output = .ok (some out) ∧ IsRequest out q body ∧ q.tcp_header.request_id = id ∧ q.action = action

/-- The host sent a response, with this id. -/
def Exchange.SendsResponse (e : Exchange) (id : Int) : Prop :=
  ∃ out r body, e.output = .ok (some out) ∧ IsResponse out r body ∧ r.tcp_header.request_id = id

/-- The input is a response, with this id, that says "acknowledged". -/
def Acknowledges (raw : Bytes) (id : Int) : Prop :=
  ∃ resp body rest, IsResponse raw resp body ∧ resp.tcp_header.isError = false ∧ resp.tcp_header.request_id = id ∧
    AcknowledgedResponse.readFrom body = .ok (⟨true⟩, rest)

/-- The peers only answer requests they were sent: every response comes after a request with its id. -/
def Polite (l : List Exchange) : Prop :=
  ∀ pre e post, l = pre ++ e :: post → ∀ id, Responds e.input id → ∃ e' ∈ pre, ∃ a, e'.SendsRequest id a

end Verif
