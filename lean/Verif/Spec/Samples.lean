import Verif.Model.Samples
/-!
# Specification: What the sample extensions do
-/

namespace Verif
open Py

variable {σ : Type}

/-- What the hello sample answers to a request with these parameters. -/
def greeting (params : Dict String String) : String :=
  match params.get? "name" with
  | some name => "Hello " ++ name ++ "! 👋\n"
  | none => "Hello from Python! 👋\n"

/-- The paths the hello sample serves. -/
def HelloPath (path : String) : Prop := path = "/hello" ∨ ∃ rest, path = "/hello/" ++ rest

/-- What the CRUD sample does with a request, as documented: one call of the client. -/
def crudCall (client : Crud.Client σ) (s : σ) (r : ExtensionRestRequest) : RestMethod → Option (σ × Except Err String)
  | .POST => some (client.index s r.content_ none)
  | .GET => some (client.search s (r.params.get? "q"))
  | .PUT => some (client.index s r.content_ (r.params.get? "id"))
  | .DELETE => some (client.delete s (r.params.get? "id"))
  | _ => none

/-- The parameters each method looks at, and whether it takes the content. -/
def crudConsumes : RestMethod → List String × Bool
  | .POST => ([], true)
  | .GET => (["q"], false)
  | .PUT => (["id"], true)
  | .DELETE => (["id"], false)
  | _ => ([], false)

end Verif
