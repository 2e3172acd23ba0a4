import Verif.Py.Str
import Verif.Py.Dict
/-!
# The wire enums and value objects

transport/time_unit.py, transport/byte_size_unit.py, rest/rest_method.py, rest/http_version.py,
rest/rest_status.py, transport/request_type.py, and the dynamically typed values of
`read_generic_value` / `write_generic_value`.
-/

namespace Verif

/-- An `enum.Enum` class: its members, each with its integer value. -/
class PyEnum (α : Type) where
  /-- The members in definition order. -/
  members : List α
  /-- `member.value`. -/
  value : α → Int

/-- `EnumClass(n)`: the member with that value, `none` stands for `ValueError`. -/
def PyEnum.ofValue? {α : Type} [PyEnum α] (n : Int) : Option α :=
  (PyEnum.members (α := α)).find? (fun m => PyEnum.value m == n)

/-- transport/time_unit.py:13 -/
inductive TimeUnit where
  | NANOSECONDS | MICROSECONDS | MILLISECONDS | SECONDS | MINUTES | HOURS | DAYS
  deriving DecidableEq, Repr

/-- transport/time_unit.py:13, `start=0`. -/
def TimeUnit.value : TimeUnit → Int
  | NANOSECONDS => 0 | MICROSECONDS => 1 | MILLISECONDS => 2 | SECONDS => 3 | MINUTES => 4
  | HOURS => 5 | DAYS => 6

instance : PyEnum TimeUnit where
  members := [.NANOSECONDS, .MICROSECONDS, .MILLISECONDS, .SECONDS, .MINUTES, .HOURS, .DAYS]
  value := TimeUnit.value

/-- transport/byte_size_unit.py:13 -/
inductive ByteSizeUnit where
  | BYTES | KB | MB | GB | TB | PB
  deriving DecidableEq, Repr

/-- transport/byte_size_unit.py:13, `start=0`. -/
def ByteSizeUnit.value : ByteSizeUnit → Int
  | BYTES => 0 | KB => 1 | MB => 2 | GB => 3 | TB => 4 | PB => 5

instance : PyEnum ByteSizeUnit where
  members := [.BYTES, .KB, .MB, .GB, .TB, .PB]
  value := ByteSizeUnit.value

/-- rest/rest_method.py:12 -/
inductive RestMethod where
  | GET | POST | PUT | DELETE | OPTIONS | HEAD | PATCH | TRACE | CONNECT
  deriving DecidableEq, Repr

/-- rest/rest_method.py:12, `start=0`. -/
def RestMethod.value : RestMethod → Int
  | GET => 0 | POST => 1 | PUT => 2 | DELETE => 3 | OPTIONS => 4 | HEAD => 5 | PATCH => 6
  | TRACE => 7 | CONNECT => 8

/-- `method.name`, rest/rest_method.py:12. -/
def RestMethod.name : RestMethod → String
  | GET => "GET" | POST => "POST" | PUT => "PUT" | DELETE => "DELETE" | OPTIONS => "OPTIONS"
  | HEAD => "HEAD" | PATCH => "PATCH" | TRACE => "TRACE" | CONNECT => "CONNECT"

instance : PyEnum RestMethod where
  members := [.GET, .POST, .PUT, .DELETE, .OPTIONS, .HEAD, .PATCH, .TRACE, .CONNECT]
  value := RestMethod.value

/-- rest/http_version.py:12 -/
inductive HttpVersion where
  | HTTP_1_0 | HTTP_1_1
  deriving DecidableEq, Repr

/-- rest/http_version.py:12, `start=0`. -/
def HttpVersion.value : HttpVersion → Int
  | HTTP_1_0 => 0 | HTTP_1_1 => 1

instance : PyEnum HttpVersion where
  members := [.HTTP_1_0, .HTTP_1_1]
  value := HttpVersion.value

/-- rest/rest_status.py:13-415 (47 members; `CONTINUE = 0`, then `auto()`). -/
inductive RestStatus where
  | CONTINUE | SWITCHING_PROTOCOLS | OK | CREATED | ACCEPTED | NON_AUTHORITATIVE_INFORMATION
  | NO_CONTENT | RESET_CONTENT | PARTIAL_CONTENT | MULTI_STATUS | MULTIPLE_CHOICES
  | MOVED_PERMANENTLY | FOUND | SEE_OTHER | NOT_MODIFIED | USE_PROXY | TEMPORARY_REDIRECT
  | BAD_REQUEST | UNAUTHORIZED | PAYMENT_REQUIRED | FORBIDDEN | NOT_FOUND | METHOD_NOT_ALLOWED
  | NOT_ACCEPTABLE | PROXY_AUTHENTICATION | REQUEST_TIMEOUT | CONFLICT | GONE
  | LENGTH_REQUIRED | PRECONDITION_FAILED | REQUEST_ENTITY_TOO_LARGE | REQUEST_URI_TOO_LONG
  | UNSUPPORTED_MEDIA_TYPE | REQUESTED_RANGE_NOT_SATISFIED | EXPECTATION_FAILED
  | MISDIRECTED_REQUEST | UNPROCESSABLE_ENTITY | LOCKED | FAILED_DEPENDENCY
  | TOO_MANY_REQUESTS | INTERNAL_SERVER_ERROR | NOT_IMPLEMENTED | BAD_GATEWAY
  | SERVICE_UNAVAILABLE | GATEWAY_TIMEOUT | HTTP_VERSION_NOT_SUPPORTED | INSUFFICIENT_STORAGE
  deriving DecidableEq, Repr

/-- rest/rest_status.py:18-415: consecutive values from 0 (`auto()` adds one to the last). -/
def RestStatus.value : RestStatus → Int
  | CONTINUE => 0 | SWITCHING_PROTOCOLS => 1 | OK => 2 | CREATED => 3 | ACCEPTED => 4
  | NON_AUTHORITATIVE_INFORMATION => 5 | NO_CONTENT => 6 | RESET_CONTENT => 7
  | PARTIAL_CONTENT => 8 | MULTI_STATUS => 9 | MULTIPLE_CHOICES => 10
  | MOVED_PERMANENTLY => 11 | FOUND => 12 | SEE_OTHER => 13 | NOT_MODIFIED => 14
  | USE_PROXY => 15 | TEMPORARY_REDIRECT => 16 | BAD_REQUEST => 17 | UNAUTHORIZED => 18
  | PAYMENT_REQUIRED => 19 | FORBIDDEN => 20 | NOT_FOUND => 21 | METHOD_NOT_ALLOWED => 22
  | NOT_ACCEPTABLE => 23 | PROXY_AUTHENTICATION => 24 | REQUEST_TIMEOUT => 25 | CONFLICT => 26
  | GONE => 27 | LENGTH_REQUIRED => 28 | PRECONDITION_FAILED => 29
  | REQUEST_ENTITY_TOO_LARGE => 30 | REQUEST_URI_TOO_LONG => 31 | UNSUPPORTED_MEDIA_TYPE => 32
  | REQUESTED_RANGE_NOT_SATISFIED => 33 | EXPECTATION_FAILED => 34 | MISDIRECTED_REQUEST => 35
  | UNPROCESSABLE_ENTITY => 36 | LOCKED => 37 | FAILED_DEPENDENCY => 38
  | TOO_MANY_REQUESTS => 39 | INTERNAL_SERVER_ERROR => 40 | NOT_IMPLEMENTED => 41
  | BAD_GATEWAY => 42 | SERVICE_UNAVAILABLE => 43 | GATEWAY_TIMEOUT => 44
  | HTTP_VERSION_NOT_SUPPORTED => 45 | INSUFFICIENT_STORAGE => 46

instance : PyEnum RestStatus where
  members := [
    .CONTINUE, .SWITCHING_PROTOCOLS, .OK, .CREATED, .ACCEPTED, .NON_AUTHORITATIVE_INFORMATION,
    .NO_CONTENT, .RESET_CONTENT, .PARTIAL_CONTENT, .MULTI_STATUS, .MULTIPLE_CHOICES,
    .MOVED_PERMANENTLY, .FOUND, .SEE_OTHER, .NOT_MODIFIED, .USE_PROXY, .TEMPORARY_REDIRECT,
    .BAD_REQUEST, .UNAUTHORIZED, .PAYMENT_REQUIRED, .FORBIDDEN, .NOT_FOUND,
    .METHOD_NOT_ALLOWED, .NOT_ACCEPTABLE, .PROXY_AUTHENTICATION, .REQUEST_TIMEOUT, .CONFLICT,
    .GONE, .LENGTH_REQUIRED, .PRECONDITION_FAILED, .REQUEST_ENTITY_TOO_LARGE,
    .REQUEST_URI_TOO_LONG, .UNSUPPORTED_MEDIA_TYPE, .REQUESTED_RANGE_NOT_SATISFIED,
    .EXPECTATION_FAILED, .MISDIRECTED_REQUEST, .UNPROCESSABLE_ENTITY, .LOCKED,
    .FAILED_DEPENDENCY, .TOO_MANY_REQUESTS, .INTERNAL_SERVER_ERROR, .NOT_IMPLEMENTED,
    .BAD_GATEWAY, .SERVICE_UNAVAILABLE, .GATEWAY_TIMEOUT, .HTTP_VERSION_NOT_SUPPORTED,
    .INSUFFICIENT_STORAGE
  ]
  value := RestStatus.value

/-- transport/request_type.py:13-22 -/
inductive RequestType where
  | REQUEST_EXTENSION_CLUSTER_STATE | REQUEST_EXTENSION_CLUSTER_SETTINGS
  | REQUEST_EXTENSION_REGISTER_REST_ACTIONS | REQUEST_EXTENSION_REGISTER_SETTINGS
  | REQUEST_EXTENSION_ENVIRONMENT_SETTINGS | REQUEST_EXTENSION_DEPENDENCY_INFORMATION
  | CREATE_COMPONENT | ON_INDEX_MODULE | GET_SETTINGS
  deriving DecidableEq, Repr

/-- transport/request_type.py:14-22 -/
def RequestType.value : RequestType → Int
  | REQUEST_EXTENSION_CLUSTER_STATE => 0 | REQUEST_EXTENSION_CLUSTER_SETTINGS => 1
  | REQUEST_EXTENSION_REGISTER_REST_ACTIONS => 2 | REQUEST_EXTENSION_REGISTER_SETTINGS => 3
  | REQUEST_EXTENSION_ENVIRONMENT_SETTINGS => 4 | REQUEST_EXTENSION_DEPENDENCY_INFORMATION => 5
  | CREATE_COMPONENT => 6 | ON_INDEX_MODULE => 7 | GET_SETTINGS => 8

instance : PyEnum RequestType where
  members := [.REQUEST_EXTENSION_CLUSTER_STATE, .REQUEST_EXTENSION_CLUSTER_SETTINGS,
    .REQUEST_EXTENSION_REGISTER_REST_ACTIONS, .REQUEST_EXTENSION_REGISTER_SETTINGS,
    .REQUEST_EXTENSION_ENVIRONMENT_SETTINGS, .REQUEST_EXTENSION_DEPENDENCY_INFORMATION,
    .CREATE_COMPONENT, .ON_INDEX_MODULE, .GET_SETTINGS]
  value := RequestType.value

/-- transport/time_value.py:16-29 -/
structure TimeValue where
  duration : Int
  time_unit : TimeUnit
  deriving DecidableEq, Repr

/-- transport/byte_size_value.py:18-30 -/
structure ByteSizeValue where
  size : Int
  unit : ByteSizeUnit
  deriving DecidableEq, Repr

/-- A dynamically typed Python value, as far as `write_generic_value` /
`read_generic_value` (transport/stream_output.py:612-630, transport/stream_input.py:229-265) and
`Settings.get` (settings/settings.py:40-42) can tell values apart.  `other` stands for a value of
any other type (float, dict, tuple, set, ...): its truth value and its `str()` are all the code
ever looks at. -/
inductive PyVal where
  | none
  | bool (b : Bool)
  | str (s : String)
  | int (i : Int)
  | bytes (b : Bytes)
  | list (l : List PyVal)
  | other (truthy : Bool) (text : String)
  deriving Repr

end Verif
