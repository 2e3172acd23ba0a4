import Verif.Model.Server
import Verif.Model.Process
/-!
# `async_run` inside a larger program: server/async_host.py

`Model/Server` is `host.run()`, in which `asyncio.run` cancels all tasks as soon as `async_run` has returned.  Here a program awaits
`async_run` in an event loop of its own: when `async_run` ends nobody cancels the tasks of the connections; the program may cancel the task
that awaits `async_run`, may call `async_run` again, and may run any number of hosts in the same loop.
-/

namespace Verif
open Py

variable {σ H : Type}

/-- What happens to a host of which `async_run` is awaited (server/async_host.py:28-42). -/
inductive Within (σ : Type) where
  /-- As under `host.run()`. -/
  | event (e : Event σ)
  /-- The program cancels the task that awaits `async_run`. -/
  | interrupt
  /-- The program cancels the task of connection `c` (it finds the tasks with `asyncio.all_tasks()`, say). -/
  | drop (c : Nat)
  /-- After `async_run` ended it is called again; `listens` tells whether `__listen` succeeds. -/
  | again (listens : Bool)

/-- What the code does on that; `none` when it cannot happen in this state.
`async_run` ends without closing anything (server/async_host.py:33-42; only `on_connection` closes a connection, line 66). -/
def Server.within (env : Ext σ H) (S : Server σ) : Within σ → Option (Server σ)
  | .event (.accept c) =>
    -- server/async_host.py:34-40, then the loop condition in line 33
    if S.serving = true ∧ S.conns c = none then some { S.setConn c {} with serving := !S.terminating } else none
  | .event .cancelled =>
    -- server/async_host.py:61, then 41-42 and 33
    if S.serving = true ∧ S.cancelling = true then some { S with terminating := true, serving := false } else none
  | .event .acceptFail =>
    -- the exception leaves `async_run`, server/async_host.py:41
    if S.serving = true then some { S with serving := false } else none
  | .event e => S.step env e
  | .interrupt =>
    -- `await self.future` raises `CancelledError`, which is caught: server/async_host.py:41-42 and 33
    if S.serving = true then some { S with terminating := true, serving := false } else none
  | .drop c =>
    -- `CancelledError` is no `Exception`: server/async_host.py:57 does not catch it, 65-66 close the connection, and 59-61 do not run.
    -- (A task that is cancelled before it first ran never comes to line 66; then the last reference to the socket goes, which closes it.)
    match S.conns c with
    | some k => if k.phase = .closed then none else some (S.setConn c { k with phase := .closed })
    | none => none
  | .again listens =>
    -- server/async_host.py:29-30; if it listens, line 35 makes a new future
    if S.serving = true then none else some { S with terminating := false, cancelling := false, serving := listens }

/-- These, in order (server/async_host.py:28-66). -/
def Server.withins (env : Ext σ H) (S : Server σ) : List (Within σ) → Option (Server σ)
  | [] => some S
  | w :: ws => (S.within env w).bind fun S' => S'.withins env ws

/-- What a host has as an `AsyncHost` (server/async_host.py:28-66): see `Server`. -/
structure Door where
  conns : Nat → Option Conn := fun _ => none
  terminating : Bool := false
  cancelling : Bool := false
  serving : Bool := true

/-- A program in whose event loop any number of hosts run (server/async_host.py:28-66). -/
structure Fleet (σ : Type) where
  process : Process σ
  doors : Nat → Door

/-- What happens in it: something at a host; a call of `serve`; or anything the program does otherwise (server/async_host.py:28-66,
server/async_extension_host.py:43-46). -/
inductive FleetEvent (σ : Type) where
  | at (h : Nat) (w : Within σ)
  | serve (h e : Nat)
  | other (n : Nat) (settings : Dict String PyVal) (states : Nat → σ)

namespace Fleet

/-- A host with its connections, as `Model/Server` has it (server/async_host.py:21-66). -/
def server (F : Fleet σ) (h : Nat) : Option (Server σ) :=
  (F.process.host h).map fun s =>
    { host := s, conns := (F.doors h).conns, terminating := (F.doors h).terminating, cancelling := (F.doors h).cancelling
      serving := (F.doors h).serving }

/-- Something happens at a host of which `serve` was called: server/async_host.py:28-66.  The ids, the settings and the states of the
extensions are those of the process.  Simplified: nothing happens at a host before `serve` was called (see `unservedInput`). -/
def atHost (envs : Nat → Ext σ H) (F : Fleet σ) (h : Nat) (w : Within σ) : Option (Fleet σ) :=
  match F.process.hosts h, F.server h with
  | some a, some S =>
    (S.within (envs a.extension) w).map fun S' =>
      { process :=
          { ids := S'.host.ids
            settings := S'.host.settings
            states := fun i => if i = a.extension then S'.host.ext else F.process.states i
            hosts := fun i => if i = h then some { a with pending := S'.host.pending, init := S'.host.init } else F.process.hosts i }
        doors := fun i => if i = h then ⟨S'.conns, S'.terminating, S'.cancelling, S'.serving⟩ else F.doors i }
  | _, _ => none

/-- One of these (server/async_host.py:28-66, server/async_extension_host.py:43-46). -/
def step (envs : Nat → Ext σ H) (F : Fleet σ) : FleetEvent σ → Option (Fleet σ)
  | .at h w => F.atHost envs h w
  | .serve h e => some { F with process := F.process.serve h e }
  | .other n settings states => some { F with process := F.process.act envs (.other n settings states) }

/-- These, in order (server/async_host.py:28-66). -/
def run (envs : Nat → Ext σ H) (F : Fleet σ) : List (FleetEvent σ) → Option (Fleet σ)
  | [] => some F
  | e :: es => (F.step envs e).bind fun F' => F'.run envs es

end Fleet

end Verif
