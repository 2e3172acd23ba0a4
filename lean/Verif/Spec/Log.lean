import Verif.Model.Log
import Verif.Spec.Host
import Verif.Spec.Display
/-!
# Specification: what is seen of a log
-/

namespace Verif
open Py

/-- The warnings in a log. -/
def warnings (l : List LogRecord) : List LogRecord := l.filter fun r => decide (r.level = .warning)

/-- What a log shows at the level INFO: all but the debugging records. -/
def atInfo (l : List LogRecord) : List LogRecord := l.filter fun r => decide (r.level ≠ .debug)

/-- No record of the log is more than information. -/
def Quiet (l : List LogRecord) : Prop := ∀ r ∈ l, r.level ≠ .warning

/-- What is seen of a log at DEBUG beyond INFO: the texts of the debugging records. -/
def debugging (l : List LogRecord) : List String := (l.filter fun r => decide (r.level = .debug)).map (·.text)

/-- The text of what a request with this action carries in this body. -/
inductive CarriedText (p : Shown) (action : String) (body : Bytes) : String → Prop
  | tcp {m : HandshakerRequest} {rest : Bytes} (ha : action = "internal:tcp/handshake")
      (hm : HandshakerRequest.readFrom body = .ok (m, rest)) : CarriedText p action body (m.str p)
  | transport {m : ServiceHandshakeRequest} {rest : Bytes} (ha : action = "internal:transport/handshake")
      (hm : ServiceHandshakeRequest.readFrom body = .ok (m, rest)) : CarriedText p action body m.parent_task_id.str
  | rest {r : ExtensionRestRequest} {rest : Bytes} (ha : action = "internal:extensions/restexecuteonextensiontaction")
      (hm : ExtensionRestRequest.readFrom {} body = .ok (r, rest)) : CarriedText p action body (r.str p)
  | init {m : InitializeExtensionRequest} {rest : Bytes} (ha : action = "internal:discovery/extensions")
      (hm : InitializeExtensionRequest.readFrom body = .ok (m, rest)) : CarriedText p action body (m.str p)

variable {σ H : Type}

/-- Nothing that the SDK shows as it is, of what is read from these bytes, has a line break in it: the action; the names and
addresses of the two nodes of an initialisation; the URI and path of a REST request; the node of a task. -/
def PlainInput (raw : Bytes) : Prop :=
  ∀ req body, IsRequest raw req body →
    OneLine req.action ∧
    (req.action = "internal:discovery/extensions" → ∀ m rest, InitializeExtensionRequest.readFrom body = .ok (m, rest) →
      ∀ n ∈ [m.source_node, m.extension.toDiscoveryNode],
        OneLine n.node_id ∧ OneLine n.node_name ∧ OneLine n.host_name ∧ OneLine n.host_address) ∧
    (req.action = "internal:extensions/restexecuteonextensiontaction" →
      ∀ r rest, ExtensionRestRequest.readFrom {} body = .ok (r, rest) → OneLine r.uri ∧ OneLine r.path) ∧
    (req.action = "internal:transport/handshake" →
      ∀ m rest, ServiceHandshakeRequest.readFrom body = .ok (m, rest) → OneLine m.parent_task_id.node_id)

/-- Nor has what the extension itself provides: its name, and the content type of whatever its handlers answer. -/
def PlainExtension (env : Ext σ H) : Prop :=
  OneLine env.name ∧ ∀ h x r x' resp, env.run h x r = (x', .ok resp) → OneLine resp.content_type

end Verif
