import Verif.Model.Rest
import Verif.Spec.Routes
/-!
# Specification: Extensions and their routes
-/

namespace Verif
open Py

variable {H : Type}

/-- The same request data (everything but the consumption marks). -/
def SameData (a b : ExtensionRestRequest) : Prop :=
  { a with consumed_params := [], content_consumed := false } =
  { b with consumed_params := [], content_consumed := false }

/-- Registrations one after another, exceptions caught by the caller. -/
def registerAll (reg : Registry H) (regs : List (H × List NamedRoute)) : Registry H :=
  regs.foldl (fun g x => (g.register x.1 x.2).1) reg

/-- All (handler, route) pairs of an extension, in the order of `rest_handlers` and `routes`. -/
def allRoutes (handlers : List (H × List NamedRoute)) : List (H × NamedRoute) :=
  handlers.flatMap fun x => x.2.map fun r => (x.1, r)

/-- No two routes of the extension have the same method and the same path up to the names of the
placeholders. -/
def NoConflict (handlers : List (H × List NamedRoute)) : Prop :=
  ((allRoutes handlers).map fun x => wildcard (Spec.routeKey x.2)).Nodup

/-- A request with this method and path is one for this route: same method, and the path is the
route's, up to what stands in the place of the placeholders. -/
def ForRoute (r : NamedRoute) (m : RestMethod) (path : String) : Prop :=
  r.method = m ∧ (path = wildcard r.path ∨ fnmatch path (wildcard r.path) = true)

end Verif
