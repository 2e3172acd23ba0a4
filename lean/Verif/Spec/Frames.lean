import Verif.Spec.Server
import Verif.Spec.Domains
/-!
# Specification: complete frames

The frames OpenSearch sends to an extension, each complete and well-formed.
-/

namespace Verif
open Py StreamInput StreamOutput

variable {σ : Type}

/-- The host has asked for the environment settings under this id. -/
def AwaitsSettings (s : Host σ) (id : Int) : Prop := s.pending.get? id = some .settings

/-- `frame` is one complete frame of the protocol, for a host in state `s`: a request of one of the four
kinds the SDK serves, a request with any other action and any body, or a response of the kind the host asked
for under its id (responses nobody asked for may be of either kind). -/
inductive CompleteFrame (depth : Nat) (s : Host σ) : Bytes → Prop
  | tcpHandshake {frame ctx f id hs cp task v}
      (h : RequestFrame frame ctx f (HandshakerRequest.writeTo ⟨task, some v⟩) "internal:tcp/handshake" id hs cp)
      (ht : TaskIdOK task) (hv : VersionOK v) : CompleteFrame depth s frame
  | transportHandshake {frame ctx f id hs cp task}
      (h : RequestFrame frame ctx f (ServiceHandshakeRequest.writeTo ⟨task⟩) "internal:transport/handshake" id hs cp)
      (ht : TaskIdOK task) : CompleteFrame depth s frame
  | rest {frame ctx f id hs cp} {r : ExtensionRestRequest}
      (h : RequestFrame frame ctx f r.writeTo "internal:extensions/restexecuteonextensiontaction" id hs cp)
      (hr : RequestOK r) : CompleteFrame depth s frame
  | init {frame ctx f id hs cp} {m : InitializeExtensionRequest}
      (h : RequestFrame frame ctx f m.writeTo "internal:discovery/extensions" id hs cp)
      (h1 : TaskIdOK m.parent_task_id) (h2 : NodeOK m.source_node) (h3 : ExtensionNodeOK m.extension) :
      CompleteFrame depth s frame
  | unknown {frame ctx f id hs cp w action} (h : RequestFrame frame ctx f w action id hs cp)
      (ha : action ∉ ["internal:discovery/extensions", "internal:extensions/restexecuteonextensiontaction",
        "internal:tcp/handshake", "internal:transport/handshake"]) : CompleteFrame depth s frame
  | acknowledged {frame id a} (h : ResponseFrame frame (AcknowledgedResponse.writeTo a) id)
      (hs : ¬ AwaitsSettings s id) : CompleteFrame depth s frame
  | settings {frame id d} (h : ResponseFrame frame (Settings.writeTo d) id) (hd : SettingsOK depth d)
      (hs : Outstanding s id → AwaitsSettings s id) : CompleteFrame depth s frame

/-- Two runs of the server which read the same frames on the same connections in the same order, but possibly
with different bytes behind the frame in each read, and with different accepts and sends in between. -/
inductive SameFrames {H : Type} (env : Ext σ H) : Host σ → List (Event σ) → List (Event σ) → Prop
  | nil {s} : SameFrames env s [] []
  | recv {s c ch frame more more' es es'} (h : CompleteFrame env.depth s frame)
      (ht : SameFrames env (onInput env ch s frame).1 es es') :
      SameFrames env s (.recv c ch (frame ++ more) :: es) (.recv c ch (frame ++ more') :: es')
  | other {s n d x es es'} (ht : SameFrames env { s with ids := n, settings := d, ext := x } es es') :
      SameFrames env s (.other n d x :: es) (.other n d x :: es')
  | left {s e es es'} (he : ∀ c ch raw, e ≠ .recv c ch raw) (he' : ∀ n d x, e ≠ .other n d x)
      (ht : SameFrames env s es es') : SameFrames env s (e :: es) es'
  | right {s e es es'} (he : ∀ c ch raw, e ≠ .recv c ch raw) (he' : ∀ n d x, e ≠ .other n d x)
      (ht : SameFrames env s es es') : SameFrames env s es (e :: es')

end Verif
