import Verif.Model.Rest
/-!
# Specification: the texts of a route
-/

namespace Verif.Spec

/-- The key under which a route is looked up: method name, space, path. -/
def routeKey (r : NamedRoute) : String := r.method.name ++ " " ++ r.path

/-- The text by which a route is advertised: method name, path and the route's name, separated by spaces. -/
def routeLine (r : NamedRoute) : String := r.method.name ++ " " ++ r.path ++ " " ++ r.unique_name

end Verif.Spec
