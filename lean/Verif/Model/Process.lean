import Verif.Model.Host
/-!
# A process with any number of hosts and extensions

Everywhere else the model has one host that serves one extension.  Here a program has any number of `AsyncExtensionHost` and `Extension`
objects, calls `serve` when and as often as it likes, and bytes may arrive at a host before `serve` was called.
-/

namespace Verif
open Py StreamInput StreamOutput

/-- The attributes that `serve` sets, server/async_extension_host.py:43-46: the extension, the `ResponseHandlers` (line 33), and the
`DiscoveryExtensionsRequestHandler` in the `RequestHandlers` (line 37) with the response it remembers. -/
structure Served where
  extension : Nat
  pending : Dict Int Pending := []
  init : Option OutboundResponse := none

/-- A process.  The extensions and the hosts are numbered.
`ids` is `TcpHeader.id_iter` (transport/tcp_header.py:36) and `settings` the dict of all `Settings()` (settings/settings.py:20): there is
one of each.  `states` are the extensions' own states.  A host of which `serve` was not called has none of the attributes
(server/async_extension_host.py:29-30 only declares them). -/
structure Process (σ : Type) where
  ids : Nat := 0
  settings : Dict String PyVal := []
  states : Nat → σ
  hosts : Nat → Option Served

variable {σ H : Type}

/-- `on_input` of a host of which `serve` was not called, server/async_extension_host.py:48-70: the message is read, and then
`self.request_handlers` (line 54) or `self.response_handlers` (line 66) is an `AttributeError`; an error response needs neither. -/
def unservedInput (ids : Nat) (raw : Bytes) : Nat × Except Err (Option Bytes) :=
  let ids := (TcpHeader.new (.int Version.CURRENT) 0 none ids).2
  match TcpHeader.readFrom raw with
  | .error e => (ids, .error e)
  | .ok (header, input) =>
    if header.isRequest then
      match OutboundRequest.new none [] none .none "" none false false ids with
      | (.error e, ids) => (ids, .error e)
      | (.ok blank, ids) =>
        match blank.readFrom (some header) input with
        | .error e => (ids, .error e)
        | .ok _ => (ids, .error .attribute)
    else
      match OutboundResponse.new none [] none .none none false false ids with
      | (.error e, ids) => (ids, .error e)
      | (.ok blank, ids) =>
        match blank.readFrom (some header) input with
        | .error e => (ids, .error e)
        | .ok (response, _) => if response.tcp_header.isError then (ids, .ok none) else (ids, .error .attribute)

namespace Process

/-- The host as the rest of the model sees it: its own attributes, what all hosts share, and the extension it serves
(server/async_extension_host.py:43-46). -/
def host (p : Process σ) (h : Nat) : Option (Host σ) :=
  (p.hosts h).map fun a => { ids := p.ids, pending := a.pending, init := a.init, settings := p.settings, ext := p.states a.extension }

/-- `host.extension`, if `serve` was called (server/async_extension_host.py:44). -/
def serving (p : Process σ) (h : Nat) : Option Nat := (p.hosts h).map Served.extension

/-- `hosts[h].serve(extensions[e])`, server/async_extension_host.py:43-46: new tables, whatever was there. -/
def serve (p : Process σ) (h e : Nat) : Process σ :=
  { p with hosts := fun i => if i = h then some { extension := e } else p.hosts i }

/-- `hosts[h].on_input(StreamInput(raw))`, server/async_extension_host.py:48-70. -/
def input (envs : Nat → Ext σ H) (p : Process σ) (h : Nat) (ch : Choice) (raw : Bytes) : Process σ × Except Err (Option Bytes) :=
  match p.hosts h with
  | none =>
    match unservedInput p.ids raw with
    | (ids, r) => ({ p with ids := ids }, r)
  | some a =>
    match onInput (envs a.extension) ch
        { ids := p.ids, pending := a.pending, init := a.init, settings := p.settings, ext := p.states a.extension } raw with
    | (s, r) =>
      ({ ids := s.ids
         settings := s.settings
         states := fun i => if i = a.extension then s.ext else p.states i
         hosts := fun i => if i = h then some { a with pending := s.pending, init := s.init } else p.hosts i }, r)

end Process

/-- What happens in a process: a call of `serve`, bytes that arrive at a host, or anything the program does otherwise: messages it builds
(`n` generated ids), `Settings` it fills, changes to its extensions (server/async_extension_host.py:43-70). -/
inductive Act (σ : Type) where
  | serve (h e : Nat)
  | input (h : Nat) (ch : Choice) (raw : Bytes)
  | other (n : Nat) (settings : Dict String PyVal) (states : Nat → σ)

/-- One of these (server/async_extension_host.py:43-70). -/
def Process.act (envs : Nat → Ext σ H) (p : Process σ) : Act σ → Process σ
  | .serve h e => p.serve h e
  | .input h ch raw => (p.input envs h ch raw).1
  | .other n settings states => { p with ids := p.ids + n, settings := settings, states := states }

/-- Any number of them (server/async_extension_host.py:43-70). -/
def Process.acts (envs : Nat → Ext σ H) (p : Process σ) (l : List (Act σ)) : Process σ := l.foldl (Process.act envs) p

end Verif
