import Verif.Model.Aliasing
import Verif.Model.Host
/-!
# Specification: a response has the headers it was given
-/

namespace Verif
open Py

/-- What one expects of rest/extension_rest_response.py:24-41: each response has its own headers - those it was
constructed with, and those set on it. -/
def expectedHeaders (ops : List HeaderOp) : List Headers := ops.foldl (fun l op =>
  match op with
  | .construct d => l ++ [d.getD []]
  | .set i k v => l.modify i fun d => d.set k v) []

/-- What each response was constructed with, in order (rest/extension_rest_response.py:30). -/
def constructedWith (ops : List HeaderOp) : List (Option Headers) := ops.filterMap fun op =>
  match op with
  | .construct d => some d
  | .set .. => none

/-- The headers that were set on any response constructed without headers, in the order of the settings; for
the settings of the default dict of rest/extension_rest_response.py:30. -/
def leakedHeaders : List (Option Headers) → List HeaderOp → List (String × List String)
  | _, [] => []
  | made, .construct d :: ops => leakedHeaders (made ++ [d]) ops
  | made, .set i k v :: ops =>
    if made[i]? = some none then (k, v) :: leakedHeaders made ops else leakedHeaders made ops

/-- Two REST handlers of an extension, written the obvious way: the first answers with a cookie (the request's uri
stands for it), `response = ExtensionRestResponse(request, OK); response.headers["Set-Cookie"] = [cookie]`, the
second with nothing, `ExtensionRestResponse(request, OK)`.  The state is the responses made so far.
(rest/extension_rest_handler.py:21-22, rest/extension_rest_response.py:24-41) -/
def cookieRun (login : Bool) (h : ResponseHeap) (request : ExtensionRestRequest) :
    ResponseHeap × Except Err ExtensionRestResponse :=
  let i := h.responses.length
  let h := h.step (.construct none)
  let h := if login then h.step (.set i "Set-Cookie" [request.uri]) else h
  (h, .ok (ExtensionRestResponse.new (some request) (some .OK) [] TEXT_CONTENT_TYPE ((h.headers i).getD [])))

end Verif
