import Verif.Py.Basic
/-!
# Listening: server/host.py and the first lines of server/async_host.py

The hosts of a process and the sockets on which they, and other programs, listen.  What the operating system and the
name resolution decide is given: `Net`, and the port picked for a host that asks for none.  It is that of Linux: with
`SO_REUSEADDR` two sockets can be bound to one port only if neither listens.
-/

namespace Verif

/-- A listening socket: the IPv4 address (0 for all of the machine) and port it is bound to, server/async_host.py:68-74. -/
structure Sock where
  ip : Nat
  port : Nat
  deriving DecidableEq, Repr

/-- The addresses overlap and the ports are the same: `bind` raises `OSError` (EADDRINUSE), server/async_host.py:71. -/
def Sock.Clash (s t : Sock) : Prop := s.port = t.port ∧ (s.ip = t.ip ∨ s.ip = 0 ∨ t.ip = 0)

instance (s t : Sock) : Decidable (s.Clash t) := inferInstanceAs (Decidable (_ ∧ _))

/-- What the machine answers: names to addresses, and which addresses and ports this process may bind
(server/async_host.py:71). -/
structure Net where
  resolve : String → Option Nat
  allowed : Nat → Nat → Bool

/-- The exceptions of `server.bind`, server/async_host.py:71. -/
inductive BindErr where
  /-- `socket.gaierror`: the address has no IPv4 address. -/
  | unknownName
  /-- `OverflowError`: not a port. -/
  | overflow
  /-- `PermissionError`, or `OSError` (EADDRNOTAVAIL). -/
  | denied
  /-- `OSError` (EADDRINUSE). -/
  | inUse
  deriving DecidableEq, Repr

/-- A host object: `Host.__init__`, server/host.py:17-21, and the class attribute `server`, server/async_host.py:23.  `running`: a call
of `async_run` has passed server/async_host.py:30 and has not ended.  `alive`: something refers to the object. -/
structure HostObj where
  address : String := "localhost"
  port : Option Int := none
  server : Option Sock := none
  running : Bool := false
  alive : Bool := true
  deriving DecidableEq, Repr

/-- The hosts made so far, in order, and the listening sockets of other programs (server/async_host.py:30, 68-74). -/
structure Machine where
  hosts : List HostObj := []
  others : List Sock := []
  deriving DecidableEq, Repr

/-- All listening sockets.  A host's socket is open as long as the host refers to it: no code closes it
(server/async_host.py:28-42 has no `server.close()`). -/
def Machine.sockets (m : Machine) : List Sock := m.hosts.filterMap (·.server) ++ m.others

/-- `bind` to this address and port does not raise EADDRINUSE, server/async_host.py:71. -/
def Machine.Free (m : Machine) (s : Sock) : Prop := ∀ t ∈ m.sockets, ¬ s.Clash t

instance (m : Machine) (s : Sock) : Decidable (m.Free s) := inferInstanceAs (Decidable (∀ t ∈ m.sockets, ¬ s.Clash t))

/-- `__listen`, server/async_host.py:68-74.  `self.port or 0` asks for any port if there is none; the system then takes `pick`. -/
def Machine.listen (net : Net) (m : Machine) (h : HostObj) (pick : Nat) : Except BindErr Sock :=
  match net.resolve h.address with
  | none => .error .unknownName
  | some ip =>
    let p := h.port.getD 0
    if p < 0 ∨ 65535 < p then .error .overflow
    else
      let port := if p = 0 then pick else p.toNat
      if port < 1 ∨ 65535 < port then .error .inUse
      else if net.allowed ip port = false then .error .denied
      else if m.Free ⟨ip, port⟩ then .ok ⟨ip, port⟩
      else .error .inUse

/-- The start of `async_run`, server/async_host.py:29-31: if listening raises, neither attribute is assigned.  The old socket, if there
is one, is referred to until the new one is assigned. -/
def Machine.run (net : Net) (m : Machine) (n : Nat) (pick : Nat) : Machine × Option BindErr :=
  match m.hosts[n]? with
  | none => (m, none)
  | some h =>
    match m.listen net h pick with
    | .error e => (m, some e)
    | .ok s => ({ m with hosts := m.hosts.set n { h with server := some s, port := some s.port, running := true } }, none)

/-- What happens to hosts and sockets. -/
inductive NetEvent where
  /-- `AsyncHost(address, port)`, server/host.py:19-21. -/
  | create (address : String) (port : Option Int)
  /-- `async_run` is called on host `n`; if it asks for any port, this one is picked (server/async_host.py:28-31). -/
  | run (n : Nat) (pick : Nat)
  /-- `async_run` of host `n` returns or raises (server/async_host.py:34-42). -/
  | ended (n : Nat)
  /-- The last reference to host `n` goes, and with it its socket. -/
  | dropped (n : Nat)
  /-- Another program listens, or stops listening. -/
  | opened (s : Sock)
  | closed (s : Sock)
  deriving DecidableEq, Repr

/-- One event; `none` if it cannot happen: only an existing host is run, a running one is referred to by its coroutine, other programs
meet the same operating system (server/async_host.py:28-42, 68-74). -/
def Machine.step (net : Net) (m : Machine) : NetEvent → Option Machine
  | .create address port => some { m with hosts := m.hosts ++ [{ address := address, port := port }] }
  | .run n pick =>
    match m.hosts[n]? with
    | some h => if h.alive = true then some (m.run net n pick).1 else none
    | none => none
  | .ended n =>
    match m.hosts[n]? with
    | some h => if h.running = true then some { m with hosts := m.hosts.set n { h with running := false } } else none
    | none => none
  | .dropped n =>
    match m.hosts[n]? with
    | some h =>
      if h.running = false then some { m with hosts := m.hosts.set n { h with server := none, alive := false } } else none
    | none => none
  | .opened s => if m.Free s then some { m with others := s :: m.others } else none
  | .closed s => some { m with others := m.others.erase s }

/-- A sequence of events (server/async_host.py:28-42, 68-74). -/
def Machine.steps (net : Net) : Machine → List NetEvent → Option Machine
  | m, [] => some m
  | m, e :: es => match m.step net e with
    | some m => Machine.steps net m es
    | none => none

end Verif
