import Verif.Model.Listen
/-!
# Specification: who answers at an address and port
-/

namespace Verif

/-- The machine can be in this state: some events, from no hosts and no sockets, lead to it. -/
def Machine.Reachable (net : Net) (m : Machine) : Prop := ∃ es, Machine.steps net {} es = some m

/-- A socket takes the connections to this address and port. -/
def Sock.At (s : Sock) (ip port : Nat) : Prop := s.port = port ∧ (s.ip = ip ∨ s.ip = 0)

instance (s : Sock) (ip port : Nat) : Decidable (s.At ip port) := inferInstanceAs (Decidable (_ ∧ _))

/-- What a peer meets at an address and port. -/
inductive Met where
  /-- The accept loop of this host: the peer is served. -/
  | host (n : Nat)
  /-- The operating system takes the connection, but nobody will ever accept it. -/
  | silence
  /-- Another program. -/
  | other
  /-- Nobody: the connection is refused. -/
  | refused
  deriving DecidableEq, Repr

/-- What a peer that connects to `ip:port` meets. -/
def Machine.meets (m : Machine) (ip port : Nat) : Met → Prop
  | .host n => ∃ (h : HostObj) (s : Sock), m.hosts[n]? = some h ∧ h.server = some s ∧ s.At ip port ∧ h.running = true
  | .silence => ∃ (n : Nat) (h : HostObj) (s : Sock), m.hosts[n]? = some h ∧ h.server = some s ∧ s.At ip port ∧ h.running = false
  | .other => ∃ s ∈ m.others, s.At ip port
  | .refused => ∀ s ∈ m.sockets, ¬ s.At ip port

end Verif
