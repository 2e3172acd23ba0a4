/-!
# Constructor defaults are objects

Python evaluates the default of a parameter once, when the class is defined.  Many constructors of the SDK have a
mutable default (a dict, list, set, `TaskId` or `Version`) and keep it as an attribute: every object constructed
without that argument then holds the same default object.  `Model/Aliasing.lean` has the headers of REST responses with
their contents; here are all such attributes, with contents of any type.
-/

namespace Verif

/-- The default objects, named after the parameters they are the default of. -/
inductive Shared where
  /-- rest/extension_rest_request.py:28 -/
  | restRequestParams
  /-- rest/extension_rest_request.py:29 -/
  | restRequestHeaders
  /-- rest/extension_rest_response.py:30 -/
  | restResponseHeaders
  /-- rest/rest_execute_on_extension_response.py:24 -/
  | executeHeaders
  /-- rest/rest_execute_on_extension_response.py:25 -/
  | executeConsumedParams
  /-- settings/settings.py:20 -/
  | settings
  /-- transport/initialize_extension_response.py:18 -/
  | implementedInterfaces
  /-- transport/discovery_node.py:31 -/
  | nodeAttributes
  /-- transport/discovery_node.py:32 -/
  | nodeRoles
  /-- transport/discovery_extension_node.py:24 -/
  | extensionNodeAttributes
  /-- transport/discovery_extension_node.py:25 -/
  | extensionNodeVersion
  /-- transport/discovery_extension_node.py:26 -/
  | extensionNodeMinimum
  /-- transport/discovery_extension_node.py:27 -/
  | extensionNodeDependencies
  /-- transport/extension_dependency.py:18 -/
  | dependencyVersion
  /-- transport/transport_request.py:17 -/
  | parentTaskId
  /-- transport/outbound_message_request.py:26 -/
  | requestFeatures
  /-- transport/outbound_message_response.py:25 -/
  | responseFeatures
  deriving DecidableEq, Repr

/-- The classes whose constructors keep such a default.  `transportRequest` is any of `TransportHandshakerHandshakeRequest`,
`TransportServiceHandshakeRequest`, `InitializeExtensionRequest`, `ExtensionTransportRequest` and
`RegisterRestActionsRequest` (which call `TransportRequest.__init__` without task id); nodes are those constructed with a
node id and an address (transport/discovery_node.py:36). -/
inductive Klass where
  | restRequest | restResponse | executeResponse | settings | initializeResponse | node | extensionNode | dependency
  | transportRequest | outboundRequest | outboundResponse
  deriving DecidableEq, Repr

/-- The attributes of an object of the class that hold a default if nothing was given: rest/extension_rest_request.py:34-41,
rest/extension_rest_response.py:36, rest/rest_execute_on_extension_response.py:32-33, settings/settings.py:23,
transport/initialize_extension_response.py:21, transport/discovery_node.py:43-44, transport/discovery_extension_node.py:29-37,
transport/extension_dependency.py:20, transport/transport_request.py:19, transport/outbound_message_request.py:34,
transport/outbound_message_response.py:32. -/
def Klass.attributes : Klass → List Shared
  | .restRequest => [.parentTaskId, .restRequestParams, .restRequestHeaders]
  | .restResponse => [.restResponseHeaders]
  | .executeResponse => [.executeHeaders, .executeConsumedParams]
  | .settings => [.settings]
  | .initializeResponse => [.implementedInterfaces]
  | .node => [.nodeAttributes, .nodeRoles]
  | .extensionNode =>
    [.extensionNodeAttributes, .nodeRoles, .extensionNodeVersion, .extensionNodeMinimum, .extensionNodeDependencies]
  | .dependency => [.dependencyVersion]
  | .transportRequest => [.parentTaskId]
  | .outboundRequest => [.requestFeatures]
  | .outboundResponse => [.responseFeatures]

/-- Whether the constructor of the class takes an argument for the attribute: an extension node is not given roles
(transport/discovery_extension_node.py:20-28), the requests are not given a task id (rest/extension_rest_request.py:34 and the
like). -/
def Klass.takes : Klass → Shared → Bool
  | .extensionNode, .nodeRoles => false
  | _, .parentTaskId => false
  | k, a => a ∈ k.attributes

/-- What `read_from` does with the object in the attribute: replace it by a new one, change it in place, or nothing.
All replace (rest/extension_rest_request.py:53-54, transport/transport_request.py:23, rest/extension_rest_response.py:48,
rest/rest_execute_on_extension_response.py:41-42, transport/initialize_extension_response.py:26,
transport/discovery_node.py:55-60, transport/discovery_extension_node.py:41-42, transport/extension_dependency.py:24), except:
settings are added to the dict there is (settings/settings.py:25-31), the features of a request are read only from a frame
with a variable header (`varhead`, transport/outbound_message.py:74-76), and those of a response never
(transport/outbound_message_response.py has no `_read_variable_bytes`). -/
inductive ReadEffect where
  | replace | inPlace | keep
  deriving DecidableEq, Repr

/-- The effect of `read_from` on each attribute, see `ReadEffect` for the lines. -/
def Shared.readEffect (varhead : Bool) : Shared → ReadEffect
  | .settings => .inPlace
  | .requestFeatures => if varhead then .replace else .keep
  | .responseFeatures => .keep
  | _ => .replace

/-- Which object an attribute holds: a default object, or one created for attribute `a` by the `n`-th operation. -/
inductive ObjRef where
  | default (a : Shared)
  | created (n : Nat) (a : Shared)
  deriving DecidableEq, Repr

variable {V : Type}

/-- The objects in the process (settings/settings.py:19-23 and the other constructors): the contents of the default objects
and of those created by the operations so far, and what the attributes of the constructed objects hold. -/
structure ObjHeap (V : Type) where
  defaults : Shared → V
  created : Nat → Shared → V
  clock : Nat
  objects : List (Klass × (Shared → ObjRef))

/-- What a program does with objects of these classes: construct one, with new objects as some of the arguments; change in place
the object an attribute of the `i`-th one holds (`node.roles.add(role)`, `response.headers[k] = v`,
`request.parent_task_id.node_id = n`); or let the `i`-th read itself from a stream, where `values` are the contents of the new
attributes and `update` is the change made in place (of settings). -/
inductive ObjOp (V : Type) where
  | construct (k : Klass) (args : Shared → Option V)
  | change (i : Nat) (a : Shared) (f : V → V)
  | read (i : Nat) (varhead : Bool) (values : Shared → V) (update : V → V)

namespace ObjHeap

/-- The contents of an object (`self.settings`, settings/settings.py:23, and the like). -/
def contents (h : ObjHeap V) : ObjRef → V
  | .default a => h.defaults a
  | .created n a => h.created n a

/-- Change an object in place (settings/settings.py:30). -/
def put (h : ObjHeap V) (r : ObjRef) (f : V → V) : ObjHeap V :=
  match r with
  | .default a => { h with defaults := fun b => if b = a then f (h.defaults a) else h.defaults b }
  | .created n a =>
    { h with created := fun m b => if m = n ∧ b = a then f (h.created n a) else h.created m b }

/-- The object of an attribute after construction: the argument if there is one, the default otherwise
(settings/settings.py:20-23 and the like). -/
def initial (n : Nat) (k : Klass) (args : Shared → Option V) (a : Shared) : ObjRef :=
  if k.takes a ∧ (args a).isSome then .created n a else .default a

/-- One operation: the constructors and `read_from` methods cited at `Klass.attributes` and `ReadEffect`, and changes in place. -/
def step (h : ObjHeap V) : ObjOp V → ObjHeap V
  | .construct k args =>
    { defaults := h.defaults
      created := fun m a => if m = h.clock then (args a).getD (h.created m a) else h.created m a
      clock := h.clock + 1
      objects := h.objects ++ [(k, initial h.clock k args)] }
  | .change i a f =>
    match h.objects[i]? with
    | some (k, refs) => if a ∈ k.attributes then { h.put (refs a) f with clock := h.clock + 1 } else { h with clock := h.clock + 1 }
    | none => { h with clock := h.clock + 1 }
  | .read i varhead values update =>
    match h.objects[i]? with
    | some (k, refs) =>
      let h' := if Shared.settings ∈ k.attributes then h.put (refs .settings) update else h
      { defaults := h'.defaults
        created := fun m a => if m = h.clock then values a else h'.created m a
        clock := h.clock + 1
        objects := h.objects.set i (k, fun a =>
          if a.readEffect varhead = .replace then .created h.clock a else refs a) }
    | none => { h with clock := h.clock + 1 }

/-- The process when the classes have just been defined, with these contents of the default objects
(rest/extension_rest_request.py:28 and the others). -/
def fresh (defaults : Shared → V) : ObjHeap V := ⟨defaults, fun _ a => defaults a, 0, []⟩

/-- Several operations, one after the other (constructors and methods as cited at `step`). -/
def run (h : ObjHeap V) (ops : List (ObjOp V)) : ObjHeap V := ops.foldl step h

/-- The contents of an attribute of the `i`-th object (`self.settings`, settings/settings.py:23, and the like). -/
def get (h : ObjHeap V) (i : Nat) (a : Shared) : Option V :=
  match h.objects[i]? with
  | some (k, refs) => if a ∈ k.attributes then some (h.contents (refs a)) else none
  | none => none

end ObjHeap

end Verif
