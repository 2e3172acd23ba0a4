import Verif.Py.Basic
/-!
# Python `dict` (insertion ordered) and `set`
-/

namespace Verif.Py

/-- A `dict` as the list of its items in insertion order.  The keys of a real dict are pairwise
distinct (`Dict.WF`). -/
abbrev Dict (κ ν : Type) := List (κ × ν)

namespace Dict
variable {κ ν : Type} [DecidableEq κ]

/-- Keys are pairwise distinct: what the Python runtime guarantees of every dict. -/
def WF (d : Dict κ ν) : Prop := (d.map (·.1)).Nodup

instance (d : Dict κ ν) : Decidable (WF d) := inferInstanceAs (Decidable (List.Nodup _))

/-- `d.get(k)` / `d[k]` (`none` = missing / KeyError). -/
def get? : Dict κ ν → κ → Option ν
  | [], _ => none
  | (k', v) :: d, k => if k' = k then some v else get? d k

/-- `d[k] = v`: an existing key keeps its position, a new one goes last. -/
def set : Dict κ ν → κ → ν → Dict κ ν
  | [], k, v => [(k, v)]
  | (k', v') :: d, k, v => if k' = k then (k', v) :: d else (k', v') :: set d k v

/-- `d.pop(k)` / `del d[k]`, the remaining dict. -/
def erase : Dict κ ν → κ → Dict κ ν
  | [], _ => []
  | (k', v') :: d, k => if k' = k then d else (k', v') :: erase d k

/-- `k in d`. -/
def contains (d : Dict κ ν) (k : κ) : Bool := (get? d k).isSome

/-- Build a dict by successive `result[k] = v` (the decoding loops, dict displays). -/
def ofItems (l : List (κ × ν)) : Dict κ ν := l.foldl (fun d kv => set d kv.1 kv.2) []

end Dict

/-- The elements of a set built by successive `add`, in first-occurrence order (the model's
representation of a Python set or of an OrderedSet: a duplicate-free list). -/
def pySet {α} [DecidableEq α] (l : List α) : List α :=
  l.foldl (fun s x => if x ∈ s then s else s ++ [x]) []

/-- An iteration order of Python's `set` objects: any function listing exactly the elements.
CPython iterates in hash-table order, which is unspecified. -/
structure HashOrder where
  order : List String → List String
  perm : ∀ l, (order l).Perm l

end Verif.Py
