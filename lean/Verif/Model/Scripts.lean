import Verif.Model.RunLog
import Verif.Model.Listen
import Verif.Model.Samples
/-!
# The scripts that start the samples: /repo/samples/hello/hello.py, /repo/samples/crud/crud.py and /repo/samples/version/version.py

Paths in this file are relative to `/repo`.  The first two scripts are the same but for the class of the extension.
-/

namespace Verif
open Py

variable {σ H : Type}

/-- `logging.basicConfig(encoding="utf-8", level=logging.INFO)`, samples/hello/hello.py:17, samples/crud/crud.py:17: records below
INFO are dropped. -/
def basicConfigInfo (l : List LogRecord) : List LogRecord :=
  l.filter fun r => match r.level with
    | .debug => false
    | .info => true
    | .warning => true

/-- `f"{host.port}"`, samples/hello/hello.py:25. -/
def portText : Option Int → String
  | none => "None"
  | some p => toString p

/-- `AsyncExtensionHost(port=1234)`, samples/hello/hello.py:22, samples/crud/crud.py:22; the address is the default of
src/opensearch_sdk_py/server/host.py:19. -/
def scriptHost : HostObj := { port := some 1234 }

/-- What a script logs before `host.run()`, samples/hello/hello.py:20-25, samples/crud/crud.py:20-25; `text` is `str(extension)`, which
the interpreter makes. -/
def scriptSays (p : Shown) (env : Ext σ H) (text : String) : List LogRecord :=
  [⟨.info, "Starting " ++ text ++ " that implements " ++ listRepr (env.interfaces.map (strRepr p.printable)) ++ "."⟩,
   ⟨.info, "Listening on " ++ scriptHost.address ++ ":" ++ portText scriptHost.port ++ "."⟩]

/-- A script started in a process of its own, while other programs listen on `others`, up to the point where `async_run` waits for
the first peer, or raises, samples/hello/hello.py:17-26, samples/crud/crud.py:17-26: the sockets, and the exception of `host.run()` if there
is one. -/
def scriptStart (net : Net) (others : List Sock) (pick : Nat) : Machine × Option BindErr :=
  Machine.run net { hosts := [scriptHost], others := others } 0 pick

/-- The log of a script up to the event at which we look at it: `es` happens once the host runs, and never if it does not
(samples/hello/hello.py:17-26, samples/crud/crud.py:17-26).  What the extension's own handlers log is not part of it (the hello sample's log
nothing above DEBUG, samples/hello/hello_rest_handler.py:23). -/
def scriptLog (net : Net) (others : List Sock) (pick : Nat) (p : Shown) (t : SocketTexts) (env : Ext σ H) (x : σ) (text : String)
    (es : List (Event σ × String)) : List LogRecord :=
  basicConfigInfo (scriptSays p env text ++
    match (scriptStart net others pick).2 with
    | some _ => []
    | none => runLog p t env { ext := x } es)

/-- samples/version/version.py:15-16: the log is at DEBUG, and has one record, the text of a version. -/
def versionScriptLog (p : Shown) : List LogRecord := [⟨.info, (Version.new 2100099).str p.fd⟩]

end Verif
