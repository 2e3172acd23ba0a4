import Verif.Model.Host
/-!
# The server loop: server/async_host.py

One task runs `async_run` (the accept loop), one task per connection runs `on_connection`.  asyncio
runs them on one thread, and a task gives up control only at `await`; `on_input` contains no
`await`, so it is one atomic step.  The operating system and the peers decide everything else: which
connection is readable, what a read returns, how much of a `sock_sendall` is taken at a time, which
sends and reads fail.  These decisions are the `Event`s; `Server.step` is what the code does with one.

Not modelled: failures of `conn.close()` and of `conn.setblocking`.  The records logged are in `Model/RunLog.lean`.
-/

namespace Verif
open Py

/-- Where a task running `on_connection` is. -/
inductive Phase where
  /-- At `await loop.sock_recv(conn, 1024 * 10)`, server/async_host.py:47. -/
  | waiting
  /-- At `await loop.sock_sendall(conn, data)` with these bytes left, server/async_host.py:56. -/
  | sending (rest : Bytes)
  /-- After `conn.close()`, server/async_host.py:66. -/
  | closed
  deriving DecidableEq, Repr

/-- One accepted connection. -/
structure Conn where
  phase : Phase := .waiting
  /-- All bytes the operating system has taken for this peer. -/
  wire : Bytes := []
  deriving DecidableEq, Repr

/-- `1024 * 10`, server/async_host.py:47. -/
def RECV_LIMIT : Nat := 1024 * 10

/-- The state of the server.  `conns` is by accept order. -/
structure Server (σ : Type) where
  host : Host σ
  conns : Nat → Option Conn := fun _ => none
  /-- `self.terminating`, server/async_host.py:29. -/
  terminating : Bool := false
  /-- `self.future.cancel()` has been called, server/async_host.py:61. -/
  cancelling : Bool := false
  /-- `async_run` has not returned, server/async_host.py:28-42. -/
  serving : Bool := true

/-- What the operating system, the peers and other code of the process do. -/
inductive Event (σ : Type) where
  /-- A peer connects; this is connection `c`. -/
  | accept (c : Nat)
  /-- `sock_recv` on `c` returns these bytes. -/
  | recv (c : Nat) (ch : Choice) (raw : Bytes)
  /-- The operating system takes the next `n` bytes of the pending `sock_sendall` on `c`. -/
  | sent (c : Nat) (n : Nat)
  /-- The pending `sock_sendall` on `c` raises. -/
  | sendFail (c : Nat)
  /-- `sock_recv` on `c` returns no bytes or raises. -/
  | eof (c : Nat)
  /-- Other code runs: it may draw ids, fill `Settings` objects, change the extension's state. -/
  | other (ids : Nat) (settings : Dict String PyVal) (ext : σ)
  /-- Other code sets `terminating`. -/
  | stop
  /-- `await self.future` raises `CancelledError` in `async_run`. -/
  | cancelled
  /-- `await self.future` raises another exception (`sock_accept` fails: too many open files, say). -/
  | acceptFail

variable {σ H : Type}

/-- Replace one connection. -/
def Server.setConn (S : Server σ) (c : Nat) (k : Conn) : Server σ :=
  { S with conns := fun d => if d = c then some k else S.conns d }

/-- `async_run` returns: `asyncio.run` then cancels all tasks, and every connection is closed by its
`finally` (server/async_host.py:26, 65-66; `CancelledError` is not an `Exception`, so line 57 does not
catch it). -/
def Server.shutdown (S : Server σ) : Server σ :=
  { S with serving := false
           conns := fun d => (S.conns d).map fun k => { k with phase := .closed } }

/-- The end of one pass of the loop, server/async_host.py:59-62 and back to 47: stop if the host is
terminating, else read again. -/
def Server.passDone (S : Server σ) (c : Nat) (k : Conn) : Server σ :=
  if S.terminating then { S.setConn c { k with phase := .closed } with cancelling := true }
  else S.setConn c { k with phase := .waiting }

/-- One pass of the loop from the read to the first `await`, server/async_host.py:48-58.  An exception is
logged and dropped; an output (a `StreamOutput` is always true in `if output`) is sent. -/
def Server.handle (env : Ext σ H) (S : Server σ) (c : Nat) (k : Conn) (ch : Choice) (raw : Bytes) : Server σ :=
  let r := onInput env ch S.host raw
  let S := { S with host := r.1 }
  match r.2 with
  | .error _ => S.passDone c k
  | .ok none => S.passDone c k
  | .ok (some data) => S.setConn c { k with phase := .sending data }

/-- What the code does on an event; `none` when the event cannot happen in this state. -/
def Server.step (env : Ext σ H) (S : Server σ) : Event σ → Option (Server σ)
  | .accept c =>
    -- server/async_host.py:34-40: the new task is created, then the loop condition is evaluated
    if S.serving = true ∧ S.conns c = none then
      let S := S.setConn c {}
      some (if S.terminating then S.shutdown else S)
    else none
  | .recv c ch raw =>
    match S.conns c with
    | some k =>
      if k.phase = .waiting ∧ raw ≠ [] ∧ raw.length ≤ RECV_LIMIT then some (S.handle env c k ch raw) else none
    | none => none
  | .sent c n =>
    match S.conns c with
    | some k =>
      match k.phase with
      | .sending rest =>
        if n < rest.length then some (S.setConn c ⟨.sending (rest.drop n), k.wire ++ rest.take n⟩)
        else if n = rest.length then some (S.passDone c ⟨.sending [], k.wire ++ rest⟩)
        else none
      | _ => none
    | none => none
  | .sendFail c =>
    -- the exception is caught, server/async_host.py:57-58
    match S.conns c with
    | some k =>
      match k.phase with
      | .sending _ => some (S.passDone c k)
      | _ => none
    | none => none
  | .eof c =>
    -- server/async_host.py:47, 65-66
    match S.conns c with
    | some k => if k.phase = .waiting then some (S.setConn c { k with phase := .closed }) else none
    | none => none
  | .other n d x =>
    if S.host.ids ≤ n then some { S with host := { S.host with ids := n, settings := d, ext := x } } else none
  | .stop => some { S with terminating := true }
  | .cancelled =>
    -- server/async_host.py:41-42
    if S.serving = true ∧ S.cancelling = true then some { S with terminating := true }.shutdown else none
  | .acceptFail =>
    -- only `CancelledError` is caught, server/async_host.py:41: the exception leaves `async_run`
    if S.serving = true then some S.shutdown else none

/-- A run: the events in order. -/
def Server.run (env : Ext σ H) (S : Server σ) : List (Event σ) → Option (Server σ)
  | [] => some S
  | e :: es => (S.step env e).bind fun S' => S'.run env es

/-- A server just started, with a host just set up. -/
def Server.start (s : Host σ) : Server σ := { host := s }

end Verif
