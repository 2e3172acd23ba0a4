import Verif.Spec.History
/-!
# Specification: leaving traffic out

`after env s l`: the host after it handled the inputs `l` in order.
-/

namespace Verif
open Py

variable {σ H : Type}

/-- One input, with the choices Python makes while handling it. -/
structure Input where
  choice : Choice
  raw : Bytes

/-- The host after these inputs. -/
def after (env : Ext σ H) (s : Host σ) (l : List Input) : Host σ :=
  l.foldl (fun s i => (onInput env i.choice s i.raw).1) s

/-- The input is a request to execute a REST handler. -/
def IsRestRequest (raw : Bytes) : Prop :=
  ∃ req body, IsRequest raw req body ∧ req.action = "internal:extensions/restexecuteonextensiontaction"

/-- The input is a request with an id other than 0 (the ids of OpenSearch start at 1, cf. C63), and not an
initialise-extension request (whose answers come later, cf. C44). -/
def PlainRequest (raw : Bytes) : Prop :=
  ∃ req body, IsRequest raw req body ∧ req.tcp_header.request_id ≠ 0 ∧ req.action ≠ "internal:discovery/extensions"

end Verif
