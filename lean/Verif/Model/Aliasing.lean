import Verif.Model.Rest
/-!
# The headers of REST responses are Python objects

`ExtensionRestResponse.__init__` has the default `headers: dict[str, list[str]] = dict()`
(rest/extension_rest_response.py:30).  Python evaluates it once, when the class is defined, so all responses
constructed without headers hold the same dict object.  `Model/Rest.lean` describes a response by the
contents of its headers at the time it is written; here is how they come about.
-/

namespace Verif
open Py

/-- Headers, as in rest/extension_rest_response.py:30. -/
abbrev Headers := Dict String (List String)

/-- Which dict object `response.headers` is: the default of the class, or the `n`-th of the dicts that were
passed to the constructor (rest/extension_rest_response.py:30, 36). -/
inductive DictRef where
  | default
  | own (n : Nat)
  deriving DecidableEq, Repr

/-- All header dicts of the process, and the `headers` attributes of the responses constructed so far, oldest
first (rest/extension_rest_response.py:24-41). -/
structure ResponseHeap where
  default : Headers := []
  own : List Headers := []
  responses : List DictRef := []
  deriving DecidableEq, Repr

/-- What code using the SDK does with responses, rest/extension_rest_response.py:24-41: construct one without
headers or with a dict of its own, or set a header of the `i`-th (`response.headers[k] = v`). -/
inductive HeaderOp where
  | construct (headers : Option Headers)
  | set (i : Nat) (k : String) (v : List String)
  deriving DecidableEq, Repr

namespace ResponseHeap

/-- The contents of a dict object (rest/extension_rest_response.py:36). -/
def dict (h : ResponseHeap) : DictRef → Headers
  | .default => h.default
  | .own n => (h.own[n]?).getD []

/-- `d[k] = v` on a dict object (rest/extension_rest_response.py:36). -/
def put (h : ResponseHeap) (r : DictRef) (k : String) (v : List String) : ResponseHeap :=
  match r with
  | .default => { h with default := h.default.set k v }
  | .own n => { h with own := h.own.modify n fun d => d.set k v }

/-- The effect of one operation, rest/extension_rest_response.py:24-36.  (There is no response number `i`: nothing
happens.) -/
def step (h : ResponseHeap) : HeaderOp → ResponseHeap
  | .construct none => { h with responses := h.responses ++ [.default] }
  | .construct (some d) => { h with own := h.own ++ [d], responses := h.responses ++ [.own h.own.length] }
  | .set i k v =>
    match h.responses[i]? with
    | some r => h.put r k v
    | none => h

/-- Several operations, one after the other (rest/extension_rest_response.py:24-41). -/
def run (h : ResponseHeap) (ops : List HeaderOp) : ResponseHeap := ops.foldl step h

/-- The headers of the `i`-th response when it is written, actions/internal/extension_rest_request_handler.py:41. -/
def headers (h : ResponseHeap) (i : Nat) : Option Headers := (h.responses[i]?).map h.dict

end ResponseHeap

end Verif
