import Verif.Model.Values
import Verif.Model.Rest
import Verif.Model.Protobuf
import Verif.Spec.RoundTrip
/-!
# Specification: Enums and optional values on the wire
-/

namespace Verif
open Py StreamInput StreamOutput

/-- `org.opensearch.rest.RestRequest.Method`. -/
def javaMethods : List (RestMethod × String) :=
  [(.GET, "GET"), (.POST, "POST"), (.PUT, "PUT"), (.DELETE, "DELETE"), (.OPTIONS, "OPTIONS"), (.HEAD, "HEAD"),
   (.PATCH, "PATCH"), (.TRACE, "TRACE"), (.CONNECT, "CONNECT")]

/-- `org.opensearch.http.HttpRequest.HttpVersion`, the part the SDK knows. -/
def javaHttpVersions : List HttpVersion := [.HTTP_1_0, .HTTP_1_1]

/-- `org.opensearch.rest.RestStatus`, with the HTTP codes. -/
def javaStatuses : List (RestStatus × Nat) :=
  [(.CONTINUE, 100), (.SWITCHING_PROTOCOLS, 101), (.OK, 200), (.CREATED, 201), (.ACCEPTED, 202),
   (.NON_AUTHORITATIVE_INFORMATION, 203), (.NO_CONTENT, 204), (.RESET_CONTENT, 205), (.PARTIAL_CONTENT, 206),
   (.MULTI_STATUS, 207), (.MULTIPLE_CHOICES, 300), (.MOVED_PERMANENTLY, 301), (.FOUND, 302), (.SEE_OTHER, 303),
   (.NOT_MODIFIED, 304), (.USE_PROXY, 305), (.TEMPORARY_REDIRECT, 307), (.BAD_REQUEST, 400), (.UNAUTHORIZED, 401),
   (.PAYMENT_REQUIRED, 402), (.FORBIDDEN, 403), (.NOT_FOUND, 404), (.METHOD_NOT_ALLOWED, 405), (.NOT_ACCEPTABLE, 406),
   (.PROXY_AUTHENTICATION, 407), (.REQUEST_TIMEOUT, 408), (.CONFLICT, 409), (.GONE, 410), (.LENGTH_REQUIRED, 411),
   (.PRECONDITION_FAILED, 412), (.REQUEST_ENTITY_TOO_LARGE, 413), (.REQUEST_URI_TOO_LONG, 414),
   (.UNSUPPORTED_MEDIA_TYPE, 415), (.REQUESTED_RANGE_NOT_SATISFIED, 416), (.EXPECTATION_FAILED, 417),
   (.MISDIRECTED_REQUEST, 421), (.UNPROCESSABLE_ENTITY, 422), (.LOCKED, 423), (.FAILED_DEPENDENCY, 424),
   (.TOO_MANY_REQUESTS, 429), (.INTERNAL_SERVER_ERROR, 500), (.NOT_IMPLEMENTED, 501), (.BAD_GATEWAY, 502),
   (.SERVICE_UNAVAILABLE, 503), (.GATEWAY_TIMEOUT, 504), (.HTTP_VERSION_NOT_SUPPORTED, 505),
   (.INSUFFICIENT_STORAGE, 507)]

/-- `java.util.concurrent.TimeUnit`. -/
def javaTimeUnits : List TimeUnit :=
  [.NANOSECONDS, .MICROSECONDS, .MILLISECONDS, .SECONDS, .MINUTES, .HOURS, .DAYS]

/-- `org.opensearch.core.common.unit.ByteSizeUnit`. -/
def javaByteSizeUnits : List ByteSizeUnit := [.BYTES, .KB, .MB, .GB, .TB, .PB]

/-- `ExtensionsManager.RequestType` (also `RequestType` of ExtensionRequestProto.proto). -/
def javaRequestTypes : List RequestType :=
  [.REQUEST_EXTENSION_CLUSTER_STATE, .REQUEST_EXTENSION_CLUSTER_SETTINGS, .REQUEST_EXTENSION_REGISTER_REST_ACTIONS,
   .REQUEST_EXTENSION_REGISTER_SETTINGS, .REQUEST_EXTENSION_ENVIRONMENT_SETTINGS,
   .REQUEST_EXTENSION_DEPENDENCY_INFORMATION, .CREATE_COMPONENT, .ON_INDEX_MODULE, .GET_SETTINGS]

/-- The wire enums of the SDK. -/
def C11_statement (α : Type) [PyEnum α] : Prop :=
  (∀ e : α, RoundTrips (writeEnum e) (readEnum α) e) ∧
  (∀ e e' : α, (writeEnum e).out = (writeEnum e').out → e = e') ∧
  (∀ (n : Nat) (rest : Bytes), (∀ e : α, PyEnum.value e ≠ (n : Int)) →
    ∃ err, readEnum α ((writeVInt n).out ++ rest) = .error err)

/-- `r` reads optional values whose present part is read by `inner`: on every input, exhausted input
included (where `read_byte` returns 0), and with any flag byte. -/
def OptionalOf {α : Type} (inner : Reader α) (r : Reader (Option α)) : Prop :=
  r [] = .ok (none, []) ∧
  (∀ rest, r (0 :: rest) = .ok (none, rest)) ∧
  (∀ rest a rest', inner rest = .ok (a, rest') → r (1 :: rest) = .ok (some a, rest')) ∧
  (∀ rest e, inner rest = .error e → r (1 :: rest) = .error e) ∧
  (∀ b rest, b ≠ 0 → b ≠ 1 → r (b :: rest) = .error .exception)

/-- What an optional value looks like on the wire, independently of the readers: nothing but a 0 byte
when absent, a 1 byte followed by the value when present. -/
def optionalWire {α : Type} (w : α → W) : Option α → W
  | none => W.emit [0]
  | some a => W.emit [1] ++ w a

end Verif
