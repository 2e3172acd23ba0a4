import Verif.Model.Construct
import Verif.Spec.Domains
/-!
# Specification: Arguments that fit the wire format, and what is left out
-/

namespace Verif
open Py

/-- The text was given: neither left out, nor `None`, nor empty. -/
def TextGiven (o : Option String) (s : String) : Prop := o = some s ∧ s ≠ ""

/-- No text was given (left out, `None` or empty). -/
def TextMissing (o : Option String) : Prop := o = none ∨ o = some ""

/-- What a node is given fits the wire format (see `NodeOK`). -/
structure NodeArgsOK (a : NodeArgs) : Prop where
  name : StrOK a.node_name
  id : ∀ s, a.node_id = some s → StrOK s
  ephemeral : ∀ s, a.ephemeral_id = some s → StrOK s
  host : ∀ s, a.host_name = some s → StrOK s
  host_address : ∀ s, a.host_address = some s → StrOK s
  address : ∀ t, a.address = some t → AddressOK t
  attributes : StrDictOK a.attributes
  roles : a.roles.length < 2 ^ 35 ∧ a.roles.Nodup ∧ ∀ r ∈ a.roles, RoleOK r
  version : ∀ v, a.version = some v → VersionOK v

/-- What an extension node is given fits the wire format. -/
structure ExtensionNodeArgsOK (a : ExtensionNodeArgs) : Prop where
  name : StrOK a.node_name
  id : StrOK a.node_id
  address : ∀ t, a.address = some t → AddressOK t
  attributes : StrDictOK a.attributes
  version : VersionOK a.version
  compatible : VersionOK a.minimum_compatible_version
  dependencies : a.dependencies.length < 2 ^ 35 ∧ ∀ d ∈ a.dependencies, DependencyOK d

end Verif
