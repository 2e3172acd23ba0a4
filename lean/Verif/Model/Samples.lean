import Verif.Model.Host
/-!
# The sample extensions: /repo/samples

Paths in this file are relative to `/repo`.
-/

namespace Verif
open Py

namespace Hello

/-- `HelloRestHandler.routes`, samples/hello/hello_rest_handler.py:31-33. -/
def routes : List NamedRoute := [⟨.GET, "/hello", "greeting"⟩, ⟨.GET, "/hello/{name}", "personal_greeting"⟩]

/-- `HelloRestHandler.handle_request`, samples/hello/hello_rest_handler.py:22-29 (logging left out). -/
def handleRequest (request : ExtensionRestRequest) : ExtensionRestResponse :=
  let (request, name) := request.param "name"
  let text := match name with
    | some name => "Hello " ++ name ++ "! 👋\n"
    | none => "Hello from Python! 👋\n"
  ExtensionRestResponse.new (some request) (some .OK) (utf8 text) TEXT_CONTENT_TYPE

/-- `HelloExtension.rest_handlers`, samples/hello/hello_extension.py:24-26: one handler. -/
def handlers : List (Unit × List NamedRoute) := [((), routes)]

/-- `HelloExtension()`, samples/hello/hello_extension.py:18-22; the extension has no state of its own. -/
def extension (depth : Nat) : Except Err (Ext Unit Unit) :=
  match Registry.build ⟨[], []⟩ handlers with
  | .ok reg => .ok {
      name := "hello-world-py", interfaces := ["Extension", "ActionExtension"], registry := reg
      run := fun _ s request => (s, .ok (handleRequest request)), depth := depth }
  | .error e => .error e

end Hello

namespace Crud

/-- The `opensearchpy.OpenSearch` client, samples/crud/crud_handler.py:28, as seen by the handler: the
operations it calls on the index "test-index", each followed by `json.dumps` of the result.  They may
change the state `σ` of the client and the cluster, and raise; `none` is Python's `None`. -/
structure Client (σ : Type) where
  index : σ → (body : Bytes) → (id : Option String) → σ × Except Err String
  search : σ → (query : Option String) → σ × Except Err String
  delete : σ → (id : Option String) → σ × Except Err String

/-- `CRUDRestHandler.routes`, samples/crud/crud_handler.py:73-80. -/
def routes : List NamedRoute :=
  [⟨.POST, "/crud", "crud_post"⟩, ⟨.GET, "/crud", "crud_get"⟩, ⟨.PUT, "/crud", "crud_put"⟩,
   ⟨.DELETE, "/crud", "crud_delete"⟩]

/-- The response made from the client's answer, samples/crud/crud_handler.py:39-40 and its three siblings. -/
def answer {σ : Type} (request : ExtensionRestRequest) : σ × Except Err String → σ × Except Err ExtensionRestResponse
  | (s, .error e) => (s, .error e)
  | (s, .ok text) => (s, .ok (ExtensionRestResponse.new (some request) (some .OK) (utf8 text) JSON_CONTENT_TYPE))

/-- `CRUDRestHandler.handle_request`, samples/crud/crud_handler.py:30-71 (logging left out).  The last
branch passes the status as the request, whose `consumed_params` the constructor asks for
(src/opensearch_sdk_py/rest/extension_rest_response.py:39-41): an AttributeError. -/
def handleRequest {σ : Type} (client : Client σ) (s : σ) (request : ExtensionRestRequest) :
    σ × Except Err ExtensionRestResponse :=
  match request.method with
  | some .POST =>
    let (request, document) := request.content
    answer request (client.index s document none)
  | some .GET =>
    let (request, q) := request.param "q"
    answer request (client.search s q)
  | some .PUT =>
    let (request, id) := request.param "id"
    let (request, document) := request.content
    answer request (client.index s document id)
  | some .DELETE =>
    let (request, id) := request.param "id"
    answer request (client.delete s id)
  | _ => (s, .error .attribute)

/-- `CRUDExtension.rest_handlers`, samples/crud/crud_extension.py:23-25: one handler. -/
def handlers : List (Unit × List NamedRoute) := [((), routes)]

/-- `CRUDExtension()`, samples/crud/crud_extension.py:17-21. -/
def extension {σ : Type} (client : Client σ) (depth : Nat) : Except Err (Ext σ Unit) :=
  match Registry.build ⟨[], []⟩ handlers with
  | .ok reg => .ok {
      name := "crud-py", interfaces := ["Extension", "ActionExtension"], registry := reg
      run := fun _ s request => handleRequest client s request, depth := depth }
  | .error e => .error e

end Crud

end Verif
