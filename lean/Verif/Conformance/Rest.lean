import Verif.Conformance.Transport
import Verif.Model.Samples
import Verif.Model.Display
/-!
# The project's own unit tests, on the model: tests/rest, tests/protobuf, tests/api, tests/test_extension.py,
# tests/transport/test_extension_transport_request.py and tests/transport/test_register_rest_actions_request.py

Tests of the model, not claims (see `Conformance/StreamInput.lean`).
-/

namespace Verif
open Py StreamInput StreamOutput

/-- The handlers of tests/rest/test_extension_rest_handlers.py. -/
inductive TestHandler where
  | fooBar | barFoo
  deriving DecidableEq, Repr

/-- Their routes. -/
def TestHandler.routes : TestHandler → List NamedRoute
  | .fooBar => [⟨.GET, "/foo", "get_foo"⟩, ⟨.GET, "/bar/{foo}", "get_bar"⟩]
  | .barFoo => [⟨.GET, "/bar/{baz}", "get_baz"⟩, ⟨.GET, "/foo/{bar}/baz/{qux}", "get_barqux"⟩]

/-- The status they answer with. -/
def TestHandler.status (h : TestHandler) (_ : Unit) (_ : ExtensionRestRequest) : Unit × Except Err RestStatus :=
  match h with | .fooBar => ((), .ok .NOT_IMPLEMENTED) | .barFoo => ((), .ok .OK)

/-- A registry after registering one of them. -/
def registered (h : TestHandler) : Registry TestHandler := (Registry.register ⟨[], []⟩ h h.routes).1

-- tests/rest/test_extension_rest_handlers.py: test_register_handlers
example :
    (Registry.register ⟨[], []⟩ TestHandler.fooBar TestHandler.fooBar.routes).2 = none ∧
    (registered .fooBar).routes.length = 2 ∧ (registered .fooBar).routes.get? "GET /foo" = some .fooBar ∧
    (registered .fooBar).routes.get? "GET /bar/*" = some .fooBar ∧
    (registered .fooBar).named_routes = ["GET /foo get_foo", "GET /bar/{foo} get_bar"] ∧
    ((registered .fooBar).handle TestHandler.status "GET /foo" () {}).2 = .ok .NOT_IMPLEMENTED ∧
    ((registered .fooBar).handle TestHandler.status "GET /bar/anything" () {}).2 = .ok .NOT_IMPLEMENTED ∧
    ((registered .fooBar).handle TestHandler.status "GET /baz" () {}).2 = .error .exception := by decide +kernel
-- test_register_wildcard_handlers
example :
    (Registry.register ⟨[], []⟩ TestHandler.barFoo TestHandler.barFoo.routes).2 = none ∧
    (registered .barFoo).routes.length = 2 ∧ (registered .barFoo).routes.get? "GET /bar/*" = some .barFoo ∧
    (registered .barFoo).routes.get? "GET /foo/*/baz/*" = some .barFoo ∧
    (registered .barFoo).named_routes = ["GET /bar/{baz} get_baz", "GET /foo/{bar}/baz/{qux} get_barqux"] ∧
    ((registered .barFoo).handle TestHandler.status "GET /bar/anything" () {}).2 = .ok .OK ∧
    ((registered .barFoo).handle TestHandler.status "GET /foo/something/baz/anything" () {}).2 = .ok .OK := by
  decide +kernel
-- test_register_conflicts
example : ((registered .fooBar).register TestHandler.barFoo TestHandler.barFoo.routes).2 = some .exception := by
  decide +kernel

/-- The request of tests/rest/test_extension_rest_request.py. -/
def testRequest : ExtensionRestRequest where
  method := some .GET
  uri := "/hello?v"
  path := "/hello"
  params := [("foo", "bar")]
  headers := [("foo", ["bar", "baz"])]
  media_type := "application/json; charset=utf-8"
  content_ := [0x7b, 0x7d]
  principal_identifier_token := "token"
  http_version := some .HTTP_1_1

-- tests/rest/test_extension_rest_request.py: test_extension_rest_request
example :
    "method=RestMethod.GET, uri=/hello?v, path=/hello".toList <:+: (testRequest.str shownAscii).toList ∧
    testRequest.writeTo.err = none ∧
    readsFirst (ExtensionRestRequest.readFrom {}) testRequest.writeTo.out = .ok testRequest := by decide +kernel
-- test_consuming
example :
    let r : ExtensionRestRequest := { params := [("foo", "bar")], content_ := [0x7b, 0x7d] }
    r.hasParam "foo" = true ∧ r.consumed_params = [] ∧ (r.param "foo").2 = some "bar" ∧ r.hasParam "bar" = false ∧
    (r.param "foo").1.consumed_params = ["foo"] ∧ ((r.param "foo").1.param "bar").2 = none ∧
    ((r.param "foo").1.param "bar").1.consumed_params = ["foo", "bar"] ∧
    r.hasContent = true ∧ r.content_consumed = false ∧ (r.content false).1.content_consumed = false ∧
    r.content.1.content_consumed = true := by decide +kernel

/-- The request and the response of tests/rest/test_extension_rest_response.py. -/
def consumedRequest : ExtensionRestRequest :=
  (((({} : ExtensionRestRequest).param "foo").1.param "bar").1.content).1
def testResponse : ExtensionRestResponse :=
  ExtensionRestResponse.new (some consumedRequest) (some .OK) [0x74, 0x65, 0x73,
    0x74] JSON_CONTENT_TYPE [("foo", ["bar", "baz"])]

-- tests/rest/test_extension_rest_response.py (sets compare without order)
example :
    ExtensionRestResponse.new none = ⟨none, [], TEXT_CONTENT_TYPE, [], [], false⟩ ∧
    testResponse = ⟨some .OK, [0x74, 0x65, 0x73, 0x74], JSON_CONTENT_TYPE, [("foo", ["bar", "baz"])], ["foo", "bar"], true⟩ ∧
    testResponse.writeTo.err = none ∧
    readsFirst ExtensionRestResponse.readFrom testResponse.writeTo.out =
      .ok { testResponse with consumed_params := ["bar", "foo"] } := by decide +kernel

-- tests/rest/test_named_route.py
example : NamedRoute.str ⟨.GET, "/test", "testing"⟩ = "GET /test testing" := by decide +kernel

/-- The response of tests/rest/test_rest_execute_on_extension_response.py. -/
def testExecute : RestExecuteOnExtensionResponse :=
  ⟨some .OK, "application/json; charset=utf-8", [0x7b, 0x7d], [("foo", ["bar", "baz"])], ["bar", "baz"], true⟩

-- tests/rest/test_rest_execute_on_extension_response.py
example : testExecute.writeTo.err = none ∧
    readsFirst RestExecuteOnExtensionResponse.readFrom testExecute.writeTo.out = .ok testExecute := by decide +kernel

-- tests/protobuf/test_extension_identity_proto.py
example : ExtensionIdentity.merge {} (ExtensionIdentity.serialize ⟨"test", []⟩) = some ⟨"test", []⟩ := by decide +kernel
-- tests/protobuf/test_extension_request_proto.py
example :
    ExtensionRequest.parse (ExtensionRequest.serialize ⟨some ⟨"test", []⟩, RequestType.GET_SETTINGS.value, []⟩) =
      some ⟨some ⟨"test", []⟩, RequestType.GET_SETTINGS.value, []⟩ ∧
    ExtensionRequest.parse (ExtensionRequest.serialize ⟨none, RequestType.GET_SETTINGS.value, []⟩) =
      some ⟨none, RequestType.GET_SETTINGS.value, []⟩ := by decide +kernel
-- tests/protobuf/test_register_rest_actions_proto.py
example : RegisterRestActions.parse (RegisterRestActions.serialize ⟨some ⟨"test", []⟩, ["foo", "bar"], ["baz", "qux"], []⟩) =
    some ⟨some ⟨"test", []⟩, ["foo", "bar"], ["baz", "qux"], []⟩ := by decide +kernel

-- tests/transport/test_extension_transport_request.py
example :
    (ExtensionTransportRequest.new .REQUEST_EXTENSION_ENVIRONMENT_SETTINGS "test").er =
      ⟨some ⟨"test", []⟩, RequestType.REQUEST_EXTENSION_ENVIRONMENT_SETTINGS.value, []⟩ ∧
    readsFirst ExtensionTransportRequest.readFrom
      (ExtensionTransportRequest.new .REQUEST_EXTENSION_ENVIRONMENT_SETTINGS "test").writeTo.out =
      .ok (ExtensionTransportRequest.new .REQUEST_EXTENSION_ENVIRONMENT_SETTINGS "test") ∧
    (ExtensionTransportRequest.new .GET_SETTINGS "").er = ⟨some ⟨"", []⟩, RequestType.GET_SETTINGS.value, []⟩ ∧
    readsFirst ExtensionTransportRequest.readFrom
      (ExtensionTransportRequest.new .REQUEST_EXTENSION_ENVIRONMENT_SETTINGS "").writeTo.out =
      .ok (ExtensionTransportRequest.new .REQUEST_EXTENSION_ENVIRONMENT_SETTINGS "") := by decide +kernel
-- tests/transport/test_register_rest_actions_request.py
example :
    (RegisterRestActionsRequest.new "" [] []).rra = ⟨some ⟨"", []⟩, [], [], []⟩ ∧
    (RegisterRestActionsRequest.new "test" ["foo", "bar"] ["baz", "qux"]).rra =
      ⟨some ⟨"test", []⟩, ["foo", "bar"], ["baz", "qux"], []⟩ ∧
    readsFirst RegisterRestActionsRequest.readFrom
      (RegisterRestActionsRequest.new "test" ["foo", "bar"] ["baz", "qux"]).writeTo.out =
      .ok (RegisterRestActionsRequest.new "test" ["foo", "bar"] ["baz", "qux"]) := by decide +kernel

-- tests/api/test_action_extension.py: test_named_routes
example : (Registry.build ⟨[], []⟩ [((), [⟨.GET, "/route", "unique"⟩])]).map (·.named_routes) =
    .ok ["GET /route unique"] := by decide +kernel

-- samples/hello/tests/test_hello.py: the greetings
example :
    (Hello.handleRequest { method := some .GET, path := "/hello" }).content = utf8 "Hello from Python! 👋\n" ∧
    (Hello.handleRequest { method := some .GET, path := "/hello/Tester", params := [("name", "Tester")] }).content =
      utf8 "Hello Tester! 👋\n" := by decide +kernel

end Verif
