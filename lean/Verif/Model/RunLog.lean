import Verif.Model.Log
import Verif.Model.Server
/-!
# The log of a whole run of the server

Every record that `async_run`, `on_connection` and `on_input` write, in order, over a run of `Model/Server.lean`.  What the
interpreter and asyncio themselves print about exceptions that leave a task is not part of it.
-/

namespace Verif
open Py

/-- What `str` gives of the sockets: of the listening one (server/async_host.py:33), and of that of each connection
(server/async_host.py:39).  The texts (descriptor, addresses, ports) are the operating system's. -/
structure SocketTexts where
  server : String
  conn : Nat → String

variable {σ H : Type}

/-- server/async_host.py:59-60, at the end of a pass. -/
def Server.endRecords (S : Server σ) : List LogRecord :=
  if S.terminating then [⟨.debug, "| terminating"⟩] else []

/-- The same after `on_input`: an output is sent first, which is where the pass waits (server/async_host.py:52-60). -/
def Server.chunkEnd (S : Server σ) : Except Err (Option Bytes) → List LogRecord
  | .ok (some _) => []
  | _ => S.endRecords

/-- What is logged when the event happens in this state: server/async_host.py:39 for a new connection, 49-55 and what the
handlers log for a chunk, 58 for an exception (`text` is the text of the exception, if there is one), 59-60 at the end of a pass. -/
def Server.records (p : Shown) (t : SocketTexts) (env : Ext σ H) (S : Server σ) (e : Event σ) (text : String) : List LogRecord :=
  match e with
  | .accept c => [⟨.debug, "< connection=" ++ t.conn c⟩]
  | .recv _ ch raw =>
    chunkLog p env ch S.host raw text none ++ S.chunkEnd (onInput env ch S.host raw).2
  | .sent c n =>
    match S.conns c with
    | some ⟨.sending rest, _⟩ => if n = rest.length then S.endRecords else []
    | _ => []
  | .sendFail _ => ⟨.warning, "! #" ++ text⟩ :: S.endRecords
  | _ => []

/-- The log of a run (server/async_host.py:28-66) from this state on: each event comes with the text of the exception it raises,
if it does. -/
def Server.log (p : Shown) (t : SocketTexts) (env : Ext σ H) (S : Server σ) : List (Event σ × String) → List LogRecord
  | [] => []
  | (e, text) :: es =>
    match S.step env e with
    | none => []
    | some S' => S.records p t env e text ++ S'.log p t env es

/-- The log of a run from its beginning, with the record of server/async_host.py:33. -/
def runLog (p : Shown) (t : SocketTexts) (env : Ext σ H) (s : Host σ) (es : List (Event σ × String)) : List LogRecord :=
  ⟨.info, "< server=" ++ t.server⟩ :: (Server.start s).log p t env es

end Verif
