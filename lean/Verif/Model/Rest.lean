import Verif.Model.Messages
import Verif.Py.Fnmatch
/-!
# The REST layer: rest/*.py, api/action_extension.py
-/

namespace Verif
open Py StreamInput StreamOutput

/-- `ExtensionRestRequest`, rest/extension_rest_request.py:22-46.  `method` and `http_version` are
`none` for Python's `None`; `consumed_params` is a set (duplicate-free list). -/
structure ExtensionRestRequest where
  parent_task_id : TaskId := {}
  method : Option RestMethod := none
  uri : String := ""
  path : String := ""
  params : Dict String String := []
  headers : Dict String (List String) := []
  media_type : String := ""
  content_ : Bytes := []
  principal_identifier_token : String := ""
  http_version : Option HttpVersion := none
  consumed_params : List String := []
  content_consumed : Bool := false
  deriving DecidableEq, Repr

/-- `output.write_enum(x)`, an AttributeError (`None.value`) when `x` is `None`. -/
def writeEnumOpt {α : Type} [PyEnum α] : Option α → W
  | some e => writeEnum e
  | none => W.fail .attribute

namespace ExtensionRestRequest

/-- The optional media type, rest/extension_rest_request.py:55-56: kept as it was when absent. -/
def readMediaType (old : String) : Reader String := do
  let b ← readBoolean
  if b then readString else pure old

/-- `self.read_from(input)`, rest/extension_rest_request.py:48-60. -/
def readFrom (self : ExtensionRestRequest) : Reader ExtensionRestRequest := do
  let parent_task_id ← TaskId.readFrom
  let method ← readEnum RestMethod
  let uri ← readString
  let path ← readString
  let params ← readStringDict
  let headers ← readStringArrayDict
  let media_type ← readMediaType self.media_type
  let n ← readArraySize
  let content_ ← readBytes n
  let pit ← readString
  let http_version ← readEnum HttpVersion
  return { self with
    parent_task_id := parent_task_id, method := some method, uri := uri, path := path,
    params := params, headers := headers, media_type := media_type, content_ := content_,
    principal_identifier_token := pit, http_version := some http_version }

/-- `write_to`, rest/extension_rest_request.py:62-76. -/
def writeTo (r : ExtensionRestRequest) : W :=
  r.parent_task_id.writeTo ++ (writeEnumOpt r.method ++ (writeString r.uri ++ (writeString r.path ++
  (writeStringDict r.params ++ (writeStringArrayDict r.headers ++
  (writeBoolean (decide (0 < r.media_type.length)) ++
  ((if r.media_type ≠ "" then writeString r.media_type else W.nil) ++
  (writeVInt r.content_.length ++ (W.emit r.content_ ++
  (writeString r.principal_identifier_token ++ writeEnumOpt r.http_version))))))))))

/-- `param(key)`, rest/extension_rest_request.py:78-82. -/
def param (r : ExtensionRestRequest) (key : String) : ExtensionRestRequest × Option String :=
  ({ r with consumed_params := if key ∈ r.consumed_params then r.consumed_params
                               else r.consumed_params ++ [key] },
   if r.params.contains key then r.params.get? key else none)

/-- `has_param(key)`, rest/extension_rest_request.py:84-85. -/
def hasParam (r : ExtensionRestRequest) (key : String) : Bool := r.params.contains key

/-- `content(content_consumed=True)`, rest/extension_rest_request.py:87-89. -/
def content (r : ExtensionRestRequest) (content_consumed : Bool := true) : ExtensionRestRequest × Bytes :=
  ({ r with content_consumed := r.content_consumed || content_consumed }, r.content_)

/-- `has_content()`, rest/extension_rest_request.py:91-92. -/
def hasContent (r : ExtensionRestRequest) : Bool := decide (0 < r.content_.length)

end ExtensionRestRequest

/-- Insertion into a sorted list. -/
def insertSorted (x : String) : List String → List String
  | [] => [x]
  | y :: ys => if x ≤ y then x :: y :: ys else y :: insertSorted x ys

/-- `sorted(l)` of strings: code point order. -/
def sorted (l : List String) : List String := l.foldr insertSorted []

/-- `ExtensionRestResponse.TEXT_CONTENT_TYPE` etc., rest/extension_rest_response.py:20-22. -/
def TEXT_CONTENT_TYPE : String := "text/plain; charset=UTF-8"
def JSON_CONTENT_TYPE : String := "application/json; charset=UTF-8"
def OCTET_CONTENT_TYPE : String := "application/octet-stream"

/-- `ExtensionRestResponse`, rest/extension_rest_response.py:19-41.  `consumed_params` is a set
(duplicate-free list).  In Python the set is the request's own set object (see `Session` below for
the consequences); here it is the set's contents at the time the response is written. -/
structure ExtensionRestResponse where
  status : Option RestStatus := none
  content : Bytes := []
  content_type : String := TEXT_CONTENT_TYPE
  headers : Dict String (List String) := []
  consumed_params : List String := []
  content_consumed : Bool := false
  deriving DecidableEq, Repr

namespace ExtensionRestResponse

/-- `ExtensionRestResponse(request, ...)`, rest/extension_rest_response.py:24-41. -/
def new (request : Option ExtensionRestRequest) (status : Option RestStatus := none)
    (content : Bytes := []) (content_type : String := TEXT_CONTENT_TYPE)
    (headers : Dict String (List String) := []) : ExtensionRestResponse :=
  match request with
  | some r => ⟨status, content, content_type, headers, r.consumed_params, r.content_consumed⟩
  | none => ⟨status, content, content_type, headers, [], false⟩

/-- `read_from`, rest/extension_rest_response.py:43-51. -/
def readFrom : Reader ExtensionRestResponse := do
  let status ← readEnum RestStatus
  let n ← readArraySize
  let content ← readBytes n
  let content_type ← readString
  let headers ← readStringArrayDict
  let params ← readStringArray
  let consumed ← readBoolean
  return ⟨some status, content, content_type, headers, pySet params, consumed⟩

/-- `write_to`, rest/extension_rest_response.py:53-62. -/
def writeTo (r : ExtensionRestResponse) : W :=
  writeEnumOpt r.status ++ (writeVInt r.content.length ++ (W.emit r.content ++
  (writeString r.content_type ++ (writeStringArrayDict r.headers ++
  (writeStringArray (sorted r.consumed_params) ++ writeBoolean r.content_consumed)))))

end ExtensionRestResponse

/-- `RestExecuteOnExtensionResponse`, rest/rest_execute_on_extension_response.py:18-34. -/
structure RestExecuteOnExtensionResponse where
  status : Option RestStatus := none
  content_type : String := ""
  content : Bytes := []
  headers : Dict String (List String) := []
  consumed_params : List String := []
  content_consumed : Bool := false
  deriving DecidableEq, Repr

namespace RestExecuteOnExtensionResponse

/-- `read_from`, rest/rest_execute_on_extension_response.py:36-44. -/
def readFrom : Reader RestExecuteOnExtensionResponse := do
  let status ← readEnum RestStatus
  let content_type ← readString
  let n ← readArraySize
  let content ← readBytes n
  let headers ← readStringArrayDict
  let params ← readStringArray
  let consumed ← readBoolean
  return ⟨some status, content_type, content, headers, params, consumed⟩

/-- `write_to`, rest/rest_execute_on_extension_response.py:46-55. -/
def writeTo (r : RestExecuteOnExtensionResponse) : W :=
  writeEnumOpt r.status ++ (writeString r.content_type ++ (writeVInt r.content.length ++
  (W.emit r.content ++ (writeStringArrayDict r.headers ++
  (writeStringArray r.consumed_params ++ writeBoolean r.content_consumed)))))

end RestExecuteOnExtensionResponse

/-- `NamedRoute`, rest/named_route.py:15-27. -/
structure NamedRoute where
  method : RestMethod
  path : String
  unique_name : String
  deriving DecidableEq, Repr

namespace NamedRoute
/-- `route.key`, rest/named_route.py:27. -/
def key (r : NamedRoute) : String := r.method.name ++ " " ++ r.path
/-- `str(route)`, rest/named_route.py:29-30. -/
def str (r : NamedRoute) : String := r.method.name ++ " " ++ r.path ++ " " ++ r.unique_name
end NamedRoute

/-- `ExtensionRestHandlers`, rest/extension_rest_handlers.py:20-25: a dict from wildcard keys to
handlers (of any type `H`), and the advertised routes. -/
structure Registry (H : Type) where
  routes : Dict String H := []
  named_routes : List String := []

namespace Registry
variable {H : Type}

/-- The loop of `register`, rest/extension_rest_handlers.py:29-38; the routes accepted before a
conflict stay. -/
def registerLoop (h : H) : Registry H → List NamedRoute → Registry H × Option Err
  | reg, [] => (reg, none)
  | reg, r :: rs =>
    let key := wildcard r.key
    if reg.routes.contains key then (reg, some .exception)
    else registerLoop h ⟨reg.routes.set key h, reg.named_routes ++ [r.str]⟩ rs

/-- `register(klass)`, rest/extension_rest_handlers.py:27-38, for a handler with these routes. -/
def register (reg : Registry H) (h : H) (routes : List NamedRoute) : Registry H × Option Err :=
  registerLoop h reg routes

/-- The first item whose wildcard key matches, rest/extension_rest_handlers.py:45-47. -/
def firstMatch (route : String) : Dict String H → Option H
  | [] => none
  | (key, h) :: rest => if fnmatch route key then some h else firstMatch route rest

/-- The handler chosen by `handle`, rest/extension_rest_handlers.py:40-49. -/
def dispatch (reg : Registry H) (route : String) : Option H :=
  match reg.routes.get? route with
  | some h => some h
  | none => firstMatch route reg.routes

/-- `handle(route, request)`, rest/extension_rest_handlers.py:40-49, with `run` the effect of a
handler's `handle_request` on the extension's state `σ`. -/
def handle {σ α β : Type} (reg : Registry H) (run : H → σ → α → σ × Except Err β) (route : String)
    (s : σ) (request : α) : σ × Except Err β :=
  match reg.dispatch route with
  | some h => run h s request
  | none => (s, .error .exception)

/-- `ActionExtension.__init__`, api/action_extension.py:30-33: the handlers are registered in order;
the first exception ends the construction. -/
def build : Registry H → List (H × List NamedRoute) → Except Err (Registry H)
  | reg, [] => .ok reg
  | reg, (h, routes) :: rest =>
    match reg.register h routes with
    | (reg', none) => build reg' rest
    | (_, some e) => .error e

end Registry

/-! ## A request and the responses built from it share the set of consumed parameters -/

/-- What a REST handler can do with its request (rest/extension_rest_request.py:78-92) and with
`ExtensionRestResponse(request)` (rest/extension_rest_response.py:24-41). -/
inductive Call where
  | param (key : String)
  | hasParam (key : String)
  | content (consumed : Bool)
  | hasContent
  | respond
  deriving DecidableEq, Repr

/-- The request object, and for each response built from it so far the flag it copied.  The set of
consumed parameters is one object shared by all of them (rest/extension_rest_response.py:40), so it
is stored once; the flag is copied (line 41). -/
structure Session where
  request : ExtensionRestRequest
  flags : List Bool := []
  deriving DecidableEq, Repr

namespace Session

/-- The effect of one call. -/
def step (s : Session) : Call → Session
  | .param k => { s with request := (s.request.param k).1 }
  | .hasParam _ => s
  | .content c => { s with request := (s.request.content c).1 }
  | .hasContent => s
  | .respond => { s with flags := s.flags ++ [s.request.content_consumed] }

/-- The effect of a sequence of calls. -/
def run (s : Session) (calls : List Call) : Session := calls.foldl step s

/-- The `i`-th response as it would be written now: the shared set, the copied flag. -/
def response (s : Session) (i : Nat) : Option (List String × Bool) :=
  (s.flags[i]?).map fun f => (s.request.consumed_params, f)

end Session

end Verif
