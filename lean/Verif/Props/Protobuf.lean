import Verif.Lemmas.ProtoWrite
/-!
# C61: protobuf payloads

The protobuf runtime refuses messages of 2 GiB or more; `serialize.length < 2 ^ 31` says the payload
is below that limit.
-/

namespace Verif
open Py

/-- C61, REST actions: what `RegisterRestActionsRequest(unique_id, rest_actions, deprecated)` writes
is read back as a request with the same id and the same two lists, in order. -/
theorem C61_register_rest_actions (uid : String) (actions deprecated : List String)
    (h : (RegisterRestActionsRequest.new uid actions deprecated).rra.serialize.length < 2 ^ 31) :
    (RegisterRestActionsRequest.new uid actions deprecated).writeTo.err = none ∧
    ∀ rest, ∃ m, RegisterRestActionsRequest.readFrom
        ((RegisterRestActionsRequest.new uid actions deprecated).writeTo.out ++ rest) = .ok (m, rest) ∧
      m.rra.identity = some { uniqueId := uid } ∧ m.rra.restActions = actions ∧
      m.rra.deprecatedRestActions = deprecated := by
  have h1 : TaskIdOK (RegisterRestActionsRequest.new uid actions deprecated).parent_task_id :=
    show TaskIdOK {} by decide +kernel
  have := rt_registerRestActions h1 h (actionsUnknownOK_new _ _ _)
  exact ⟨this.1, fun rest => ⟨_, this.2 rest, rfl, rfl, rfl⟩⟩

example := C61_register_rest_actions "hi" ["GET /é", "PUT /b"] [""] (by decide +kernel)

/-- C61, REST actions, any message object (also one without identity or with a parent task). -/
theorem C61_register_rest_actions_any (m : RegisterRestActionsRequest) (h1 : TaskIdOK m.parent_task_id)
    (h2 : m.rra.serialize.length < 2 ^ 31) (h3 : ActionsUnknownOK m.rra) :
    RoundTrips m.writeTo RegisterRestActionsRequest.readFrom m := rt_registerRestActions h1 h2 h3

example := C61_register_rest_actions_any ⟨⟨"node", some 5⟩, ⟨none, ["GET /é"], [], []⟩⟩ (by decide +kernel) (by decide +kernel)
  ⟨foreign_nil _ _, by simp⟩

/-- C61, extension requests: type and unique id. -/
theorem C61_extension_request (rt : RequestType) (uid : String)
    (h : (ExtensionTransportRequest.new rt uid).er.serialize.length < 2 ^ 31) :
    (ExtensionTransportRequest.new rt uid).writeTo.err = none ∧
    ∀ rest, ∃ m, ExtensionTransportRequest.readFrom
        ((ExtensionTransportRequest.new rt uid).writeTo.out ++ rest) = .ok (m, rest) ∧
      m.er.identity = some { uniqueId := uid } ∧ m.er.requestType = rt.value := by
  have h1 : TaskIdOK (ExtensionTransportRequest.new rt uid).parent_task_id :=
    show TaskIdOK {} by decide +kernel
  have hr : -(2 ^ 31) ≤ rt.value ∧ rt.value < 2 ^ 31 := by cases rt <;> decide
  have := rt_extensionTransport (m := ExtensionTransportRequest.new rt uid) h1 hr.1 hr.2 h (extensionUnknownOK_new _ _)
  exact ⟨this.1, fun rest => ⟨_, this.2 rest, rfl, rfl⟩⟩

example := C61_extension_request .GET_SETTINGS "x" (by decide +kernel)

/-- C61, extension requests, any message object whose enum number is an int32. -/
theorem C61_extension_request_any (m : ExtensionTransportRequest) (h1 : TaskIdOK m.parent_task_id)
    (h2 : -(2 ^ 31) ≤ m.er.requestType) (h3 : m.er.requestType < 2 ^ 31)
    (h4 : m.er.serialize.length < 2 ^ 31) (h5 : ExtensionUnknownOK m.er) :
    RoundTrips m.writeTo ExtensionTransportRequest.readFrom m := rt_extensionTransport h1 h2 h3 h4 h5

example := C61_extension_request_any ⟨⟨"node", some 5⟩, ⟨some { uniqueId := "é" }, -3, []⟩⟩ (by decide +kernel) (by decide) (by decide)
  (by decide +kernel) ⟨foreign_nil _ _, fun u h => by cases h; exact foreign_nil _ _⟩

/-- The id of an extension request is a request type again: the nine numbers are distinct. -/
theorem C61_request_type_injective (a b : RequestType) (h : a.value = b.value) : a = b := by
  cases a <;> cases b <;> simp_all [RequestType.value]

example := C61_request_type_injective _ _ (rfl : RequestType.REQUEST_EXTENSION_REGISTER_REST_ACTIONS.value = _)

/-- The size hypothesis is met by ordinary requests, for instance this one; its bytes are the proto3
encoding worked out by hand. -/
example : (RegisterRestActionsRequest.new "hi" ["GET /é"] []).rra.serialize.length < 2 ^ 31 ∧
    (RegisterRestActionsRequest.new "hi" ["GET /é"] []).rra.serialize =
      [0x0a, 4, 0x0a, 2, 0x68, 0x69, 0x12, 7, 71, 69, 84, 32, 47, 0xc3, 0xa9] := by decide +kernel

example : (ExtensionTransportRequest.new .GET_SETTINGS "x").er.serialize = [0x0a, 3, 0x0a, 1, 120, 0x10, 8] ∧
    (ExtensionTransportRequest.new .REQUEST_EXTENSION_CLUSTER_STATE "").er.serialize = [0x0a, 0] := by
  decide +kernel

end Verif
