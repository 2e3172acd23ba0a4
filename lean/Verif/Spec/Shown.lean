import Verif.Model.Messages
import Verif.Model.VersionDisplay
/-!
# Specification: what is shown of nodes
-/

namespace Verif
open Py

/-- No commas in the texts of a node that are shown as they are. -/
def PlainNode (n : DiscoveryNode) : Prop :=
  ∀ s ∈ [n.node_id, n.node_name, n.host_name, n.host_address], ',' ∉ s.toList

/-- Two nodes agree in all that is shown of a node; `fd` is Python's division, for the text of versions. -/
structure SameShownNode (fd : FloatDiv) (n n' : DiscoveryNode) : Prop where
  node_id : n.node_id = n'.node_id
  version : n.version.str fd = n'.version.str fd
  node_name : n.node_name = n'.node_name
  host_name : n.host_name = n'.host_name
  host_address : n.host_address = n'.host_address
  attributes : n.attributes = n'.attributes
  roles : n.roles = n'.roles

/-- Two extension nodes agree in all that is shown of one. -/
structure SameShownExtension (fd : FloatDiv) (n n' : DiscoveryExtensionNode) : Prop extends
    SameShownNode fd n.toDiscoveryNode n'.toDiscoveryNode where
  minimum : n.minimum_compatible_version.str fd = n'.minimum_compatible_version.str fd
  dependencies : n.dependencies.length = n'.dependencies.length

end Verif
