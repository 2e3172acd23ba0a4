import Verif.Model.Leave
import Verif.Spec.Server
import Verif.Spec.Host
/-!
# Specification: chunks on which a handler raises something that is no `Exception`
-/

namespace Verif
open Py

variable {σ H : Type}

/-- The bytes are a REST request for which a handler is registered, and this handler raises `b` on it, in this state of the extension. -/
def Departs (env : Ext σ H) (leaves : H → σ → ExtensionRestRequest → Option Base) (x : σ) (raw : Bytes) (b : Base) : Prop :=
  ∃ request body q rest m h, IsRequest raw request body ∧ request.action = "internal:extensions/restexecuteonextensiontaction" ∧
    ExtensionRestRequest.readFrom {} body = .ok (q, rest) ∧ q.method = some m ∧
    env.registry.dispatch (m.name ++ " " ++ q.path) = some h ∧ leaves h x q = some b

/-- During the run no handler raises `SystemExit` or `KeyboardInterrupt`, and none that is called for a chunk from connection `c` raises anything but an
`Exception`. -/
def Spared (env : Ext σ H) (leaves : H → σ → ExtensionRestRequest → Option Base) (c : Nat) : Server σ → List (Event σ) → Prop
  | _, [] => True
  | S, e :: es =>
    (∀ d ch raw b, e = .recv d ch raw → Departs env leaves S.host.ext raw b → d ≠ c ∧ b ≠ .systemExit ∧ b ≠ .keyboardInterrupt) ∧
    ∀ S', S.stepAny env leaves e = some S' → Spared env leaves c S' es

end Verif
