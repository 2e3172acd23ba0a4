{"id": "C01", "title": "Fixed-width integers round-trip and reject overflow", "statement": "Writing an integer with write_byte/write_int/write_long emits exactly 1/4/8 big-endian two's-complement bytes and the matching read returns the same integer and leaves the stream just after them; an integer outside the signed 8/32/64-bit range raises OverflowError and is never written truncated.", "quantifier": "every Python integer, every byte string that follows it on the stream", "why_tests_cant": "2^64 values per width plus all unbounded ints; tests sample one or two", "anchors": ["src/opensearch_sdk_py/transport/stream_input.py:StreamInput.read_byte,read_int,read_long", "src/opensearch_sdk_py/transport/stream_output.py:StreamOutput.write_byte,write_int,write_long"]}
{"id": "C02", "title": "v_int round-trip", "statement": "For every 0 <= i < 2^35, read_v_int applied to what write_v_int(i) wrote returns i and consumes exactly the written bytes (1 to 5 of them); for larger i the write still succeeds but read_v_int raises.", "quantifier": "every non-negative integer and every trailing byte string", "why_tests_cant": "tests only check the 7/14/21/28-bit boundaries", "anchors": ["src/opensearch_sdk_py/transport/stream_input.py:StreamInput.read_v_int", "src/opensearch_sdk_py/transport/stream_output.py:StreamOutput.write_v_int"]}
{"id": "C03", "title": "v_long round-trip", "statement": "For every 0 <= i < 2^64, read_v_long applied to what write_v_long(i) wrote returns i and consumes exactly the written bytes; for i >= 2^64 read_v_long raises instead of returning a wrong number.", "quantifier": "every non-negative integer and every trailing byte string", "why_tests_cant": "2^64 values; the tenth-byte rule is only reached near 2^63", "anchors": ["src/opensearch_sdk_py/transport/stream_input.py:StreamInput.read_v_long", "src/opensearch_sdk_py/transport/stream_output.py:StreamOutput.write_v_long"]}
{"id": "C04", "title": "Varint bytes are the minimal base-128 encoding and v_int_size predicts their number", "statement": "write_v_int(i) emits the little-endian base-128 digits of i, continuation bit on all but the last, with no superfluous trailing zero group, and v_int_size(i) equals the number of bytes emitted, for all i >= 0.", "quantifier": "every non-negative integer of any size", "why_tests_cant": "unbounded integers; the writer and the size function are two separate loops that could drift apart", "anchors": ["src/opensearch_sdk_py/transport/stream_output.py:StreamOutput.write_v_int,v_int_size"]}
{"id": "C05", "title": "z_long round-trip and range check", "statement": "For every integer i with |i| < 2^63, read_z_long returns i from what write_z_long(i) wrote and consumes exactly it; every other integer raises ValueError and writes nothing.", "quantifier": "every Python integer", "why_tests_cant": "the sign/magnitude packing and the 64-bit check interact at both ends of the range", "anchors": ["src/opensearch_sdk_py/transport/stream_input.py:StreamInput.read_z_long", "src/opensearch_sdk_py/transport/stream_output.py:StreamOutput.write_z_long"]}
{"id": "C06", "title": "z_long is wire-compatible with the cited zig-zag encoding", "statement": "write_z_long emits the zig-zag encoding its comment cites (0,-1,1,-2,2,... -> 0,1,2,3,4,...), so a peer implementing that standard decodes the same number.", "quantifier": "every integer in the 64-bit range", "why_tests_cant": "tests fix the produced bytes instead of comparing with the standard; compatibility is a statement about all negative numbers", "anchors": ["src/opensearch_sdk_py/transport/stream_output.py:StreamOutput.write_z_long", "src/opensearch_sdk_py/transport/stream_input.py:StreamInput.read_z_long"]}
{"id": "C07", "title": "Booleans and optional booleans", "statement": "write_boolean/read_boolean round-trip; read_boolean accepts exactly bytes 0 and 1 and read_optional_boolean exactly 0, 1 and 2, raising on every other byte.", "quantifier": "every byte value and trailing input", "why_tests_cant": "all 256 byte values and any continuation", "anchors": ["src/opensearch_sdk_py/transport/stream_input.py:StreamInput.read_boolean,read_optional_boolean", "src/opensearch_sdk_py/transport/stream_output.py:StreamOutput.write_boolean"]}
{"id": "C08", "title": "Strings round-trip and malformed UTF-8 is rejected", "statement": "read_string returns the very string write_string wrote, for every Unicode string up to 2^31 encoded bytes, consuming exactly its bytes; and whenever read_string returns a string, the bytes it consumed after the length prefix are that string's UTF-8 encoding (malformed UTF-8 raises).", "quantifier": "every Unicode string, every byte sequence", "why_tests_cant": "strings are unbounded; multi-byte characters make byte and character counts differ", "anchors": ["src/opensearch_sdk_py/transport/stream_input.py:StreamInput.read_string,read_array_size", "src/opensearch_sdk_py/transport/stream_output.py:StreamOutput.write_string"]}
{"id": "C09", "title": "String collections round-trip in order", "statement": "String arrays, string-to-string dicts, string-to-string-array dicts and string-to-string-set dicts written to a stream are read back equal: same keys in the same order, same values (sets as sets), consuming exactly the bytes written.", "quantifier": "every list/dict of strings of any size, any trailing bytes, any iteration order of the sets", "why_tests_cant": "unbounded sizes; set iteration order is unspecified", "anchors": ["src/opensearch_sdk_py/transport/stream_input.py:StreamInput.read_string_array,read_string_to_string_dict,read_string_to_string_array_dict,read_string_to_string_set_dict", "src/opensearch_sdk_py/transport/stream_output.py:StreamOutput.write_string_array,write_string_to_string_dict,write_string_to_string_array_dict,write_string_to_string_set_dict"]}
{"id": "C10", "title": "Duplicate keys on the wire: last value wins", "statement": "Decoding a string-to-string dict whose wire form repeats a key yields one entry for that key, holding the value that came last on the wire, positioned where the key first appeared; the decoded dict never has two entries for a key.", "quantifier": "every sequence of key/value pairs on the wire", "why_tests_cant": "any number and arrangement of duplicates", "anchors": ["src/opensearch_sdk_py/transport/stream_input.py:StreamInput.read_string_to_string_dict"]}
{"id": "C11", "title": "Enums round-trip and unknown ordinals are rejected", "statement": "For each wire enum of the SDK (REST method, REST status, HTTP version, time unit, byte-size unit) write_enum/read_enum round-trip every member, distinct members have distinct encodings, and read_enum raises on every number that is not a member's ordinal. Each member is written as its position in the peer's (OpenSearch's) enum.", "quantifier": "every member of every enum; every v_int value", "why_tests_cant": "unknown ordinals are unbounded in number", "anchors": ["src/opensearch_sdk_py/transport/stream_input.py:StreamInput.read_enum", "src/opensearch_sdk_py/transport/stream_output.py:StreamOutput.write_enum", "src/opensearch_sdk_py/rest/rest_method.py", "src/opensearch_sdk_py/rest/rest_status.py", "src/opensearch_sdk_py/rest/http_version.py", "src/opensearch_sdk_py/transport/time_unit.py", "src/opensearch_sdk_py/transport/byte_size_unit.py"]}
{"id": "C12", "title": "TimeValue and ByteSizeValue round-trip", "statement": "A TimeValue or ByteSizeValue with |magnitude| < 2^63 written to a stream is read back with the same magnitude and unit; other magnitudes raise.", "quantifier": "every integer magnitude, every unit", "why_tests_cant": "unbounded magnitudes; writer uses a byte where the reader uses a v_int for the unit", "anchors": ["src/opensearch_sdk_py/transport/stream_output.py:StreamOutput.write_time_value", "src/opensearch_sdk_py/transport/stream_input.py:StreamInput.read_time_value", "src/opensearch_sdk_py/transport/byte_size_value.py:ByteSizeValue.read_from,write_to"]}
{"id": "C13", "title": "Generic values round-trip at any nesting", "statement": "write_generic_value followed by read_generic_value returns the same value for None, booleans, 64-bit integers, strings, byte strings and arbitrarily nested lists of these; a value of any other type is not silently dropped.", "quantifier": "every value tree of any depth and width", "why_tests_cant": "recursive, unbounded structure", "anchors": ["src/opensearch_sdk_py/transport/stream_output.py:StreamOutput.write_generic_value,write_array_list", "src/opensearch_sdk_py/transport/stream_input.py:StreamInput.read_generic_value,read_array_list"]}
{"id": "C14", "title": "Predicted dict sizes equal the bytes written", "statement": "string_to_string_dict_size and string_to_string_collection_dict_size return exactly the number of bytes that writing the dict emits.", "quantifier": "every dict of strings, any characters, any length", "why_tests_cant": "depends on the character/byte count difference crossing a 7-bit boundary", "anchors": ["src/opensearch_sdk_py/transport/stream_output.py:StreamOutput.string_to_string_dict_size,string_to_string_collection_dict_size"]}
{"id": "C15", "title": "Truncated input is detected", "statement": "Decoding a value from a proper prefix of its encoding raises an error rather than returning some other value.", "quantifier": "every encoded value and every cut point", "why_tests_cant": "every cut point of every encoding", "anchors": ["src/opensearch_sdk_py/transport/stream_input.py:StreamInput.read_byte,read_int,read_bytes,read_string"]}
{"id": "C16", "title": "Decoded size is bounded by the input", "statement": "A decoder never produces more elements than the input has bytes, so a short hostile input cannot make it build a huge value.", "quantifier": "every input byte string", "why_tests_cant": "needs all inputs, including ones whose declared count exceeds the data", "anchors": ["src/opensearch_sdk_py/transport/stream_input.py:StreamInput.read_string_array,read_array_size,read_array_list"]}
{"id": "C17", "title": "Version numbers: identity and display", "statement": "A version object with any 32-bit id displays as major.minor.revision.build with components n/10^6, n/10^4, n/100 and n each modulo 100, where n is the id with the OpenSearch marker bit (bit 27) cleared, although it is computed in floating point; in particular str(Version(n)) shows n's own components for every release number n < 2^27. Distinct numbers give distinct versions, and both wire forms (v_int and 4-byte header form) read back the same version.", "quantifier": "every 32-bit version id; every IEEE-conformant rounding of the division", "why_tests_cant": "2^32 ids; floating-point truncation errors would hit isolated values", "anchors": ["src/opensearch_sdk_py/transport/version.py:Version", "src/opensearch_sdk_py/transport/stream_input.py:StreamInput.read_version", "src/opensearch_sdk_py/transport/stream_output.py:StreamOutput.write_version"]}
{"id": "C18", "title": "version_size predicts the handshake length prefix", "statement": "version_size(v) equals the number of bytes write_version(v) emits, so the length prefix in a TCP-handshake request is right, for every release number below 2^27 in both its marked and legacy form; precisely, it is right iff the marker bit is clear or the id is below 2^28.", "quantifier": "every non-negative version id", "why_tests_cant": "the shortcut constant 4 is only right on an interval of ids", "anchors": ["src/opensearch_sdk_py/transport/stream_output.py:StreamOutput.version_size,write_version", "src/opensearch_sdk_py/transport/transport_handshaker_handshake_request.py"]}
{"id": "C19", "title": "TCP header layout and round-trip", "statement": "A TcpHeader carrying a Version serialises to exactly 23 bytes in the order prefix(2), size(4), request id(8), status(1), version(4), variable-header size(4), and reads back field for field; values that do not fit their field raise.", "quantifier": "every header value and every trailing input", "why_tests_cant": "product of all field ranges", "anchors": ["src/opensearch_sdk_py/transport/tcp_header.py:TcpHeader.read_from,write_to"]}
{"id": "C20", "title": "Status flags are independent", "statement": "Setting or clearing one of request/response, error, compress, handshake on a header changes that flag only, as reported by the is_* properties and the statuses list, from any status value and after any sequence of assignments; the status stays serialisable; a message that was read reports the flags and the request id that are on the wire, and is a request exactly if it is not a response.", "quantifier": "every status integer, every sequence of flag assignments", "why_tests_cant": "arbitrary assignment histories and negative status bytes", "anchors": ["src/opensearch_sdk_py/transport/tcp_header.py:TcpHeader.is_request,is_response,is_error,is_compress,is_handshake,statuses", "src/opensearch_sdk_py/transport/network_message.py:NetworkMessage.is_request,is_response,is_error,is_compress,is_handshake,request_id"]}
{"id": "C21", "title": "Message size bookkeeping is an invariant", "statement": "After constructing an outbound message and any sequence of assignments to its variable bytes and message bytes, the header's size equals 17 + context size + variable bytes + message bytes and the variable-header size equals context size + variable bytes.", "quantifier": "every message, every sequence of assignments of any length", "why_tests_cant": "arbitrary histories of incremental += / -= updates", "anchors": ["src/opensearch_sdk_py/transport/outbound_message.py:OutboundMessage", "src/opensearch_sdk_py/transport/network_message.py:NetworkMessage"]}
{"id": "C22", "title": "Declared frame length equals bytes on the wire", "statement": "The bytes an outbound message writes number exactly its header size field plus 6, and the variable-header field delimits context plus variable bytes, so the peer can find the message boundary.", "quantifier": "every message with every thread context", "why_tests_cant": "depends on dict size prediction for all header strings", "anchors": ["src/opensearch_sdk_py/transport/outbound_message.py:OutboundMessage.write_to", "src/opensearch_sdk_py/transport/thread_context_struct.py:ThreadContextStruct.size"]}
{"id": "C23", "title": "Outbound requests round-trip", "statement": "Reading what an OutboundMessageRequest wrote restores request id, flags, version, thread context, features and action, and leaves the stream exactly at the message body.", "quantifier": "every request with any thread-context headers, every body", "why_tests_cant": "product of unbounded strings, dicts and bodies", "anchors": ["src/opensearch_sdk_py/transport/outbound_message_request.py:OutboundMessageRequest", "src/opensearch_sdk_py/transport/outbound_message.py:OutboundMessage.read_from,write_to"]}
{"id": "C24", "title": "Outbound responses round-trip", "statement": "Reading what an OutboundMessageResponse wrote restores request id, flags, version and thread context, and leaves the stream exactly at the message body.", "quantifier": "every response with any thread-context headers, every body", "why_tests_cant": "product of unbounded strings, dicts and bodies", "anchors": ["src/opensearch_sdk_py/transport/outbound_message_response.py:OutboundMessageResponse", "src/opensearch_sdk_py/transport/outbound_message.py:OutboundMessage.read_from,write_to"]}
{"id": "C25", "title": "Task ids round-trip", "statement": "A TaskId with a node id and a 64-bit id, or an empty TaskId, is restored by read_from(write_to); an empty node id never carries a numeric id.", "quantifier": "every node id string and integer", "why_tests_cant": "unbounded strings and integers", "anchors": ["src/opensearch_sdk_py/transport/task_id.py:TaskId"]}
{"id": "C26", "title": "Transport addresses round-trip", "statement": "Any IPv4 transport address (address, host name, port) is restored by reading what it wrote.", "quantifier": "all 2^32 IPv4 addresses, every host name, every 32-bit port", "why_tests_cant": "half the IPv4 space lies above the signed 32-bit range", "anchors": ["src/opensearch_sdk_py/transport/transport_address.py:TransportAddress"]}
{"id": "C27", "title": "Discovery nodes round-trip", "statement": "A DiscoveryNode or DiscoveryExtensionNode with an address below 128.0.0.0 is restored field by field (names, ids, address, attributes, roles in order, version, minimum version, dependencies), consuming exactly its bytes. The built-in roles are found by name, each under its own name.", "quantifier": "every node value", "why_tests_cant": "product of unbounded strings, dicts and lists", "anchors": ["src/opensearch_sdk_py/transport/discovery_node.py:DiscoveryNode", "src/opensearch_sdk_py/transport/discovery_extension_node.py:DiscoveryExtensionNode", "src/opensearch_sdk_py/transport/extension_dependency.py", "src/opensearch_sdk_py/transport/discovery_node_role.py:DiscoveryNodeRole"]}
{"id": "C28", "title": "Handshake and initialisation messages round-trip", "statement": "Each handshake, initialise-extension, acknowledged and environment-settings message is restored by reading what it wrote, consuming exactly its bytes. (A TCP handshake request built without a version is the one exception: it writes its task id alone, and that reads back as a request for version 0.)", "quantifier": "every message value", "why_tests_cant": "product of unbounded components", "anchors": ["src/opensearch_sdk_py/transport/transport_handshaker_handshake_request.py", "src/opensearch_sdk_py/transport/transport_handshaker_handshake_response.py", "src/opensearch_sdk_py/transport/transport_service_handshake_response.py", "src/opensearch_sdk_py/transport/initialize_extension_request.py", "src/opensearch_sdk_py/transport/initialize_extension_response.py", "src/opensearch_sdk_py/transport/acknowledged_response.py", "src/opensearch_sdk_py/transport/environment_settings_response.py"]}
{"id": "C29", "title": "REST requests and responses round-trip", "statement": "An ExtensionRestRequest, ExtensionRestResponse or RestExecuteOnExtensionResponse is restored by a fresh object reading what it wrote (consumed parameters as a set), consuming exactly its bytes.", "quantifier": "every request/response value", "why_tests_cant": "product of unbounded strings, dicts, bodies and enums", "anchors": ["src/opensearch_sdk_py/rest/extension_rest_request.py", "src/opensearch_sdk_py/rest/extension_rest_response.py", "src/opensearch_sdk_py/rest/rest_execute_on_extension_response.py"]}
{"id": "C30", "title": "Parameter and content consumption is tracked exactly", "statement": "After any sequence of param/has_param/content/has_content calls, the consumed-parameter set is exactly the keys passed to param (present or not), content is marked consumed iff some content call asked for it, the accessors never change the request's data, and a response built from the request reports the same; on the wire the response lists each consumed parameter in code point order, so the order of consumption cannot be seen in the bytes.", "quantifier": "every request and every call sequence", "why_tests_cant": "arbitrary call histories", "anchors": ["src/opensearch_sdk_py/rest/extension_rest_request.py:ExtensionRestRequest.param,content", "src/opensearch_sdk_py/rest/extension_rest_response.py:ExtensionRestResponse.__init__", "src/opensearch_sdk_py/rest/extension_rest_response.py:ExtensionRestResponse.write_to"]}
{"id": "C31", "title": "Route registry: no template is silently replaced and advertised routes match", "statement": "Registering handlers never replaces an already registered route key (a second route with the same method and wildcard shape raises), every registered key maps to the handler that registered it, and the advertised named routes are exactly the accepted routes in order - after any sequence of registrations, including failed ones.", "quantifier": "every sequence of handler registrations with any routes", "why_tests_cant": "arbitrary registration histories", "anchors": ["src/opensearch_sdk_py/rest/extension_rest_handlers.py:ExtensionRestHandlers.register", "src/opensearch_sdk_py/api/action_extension.py:ActionExtension"]}
{"id": "C32", "title": "A failed registration leaves the registry unchanged", "statement": "If registering a handler raises because of a conflict, the registry is as it was before the call.", "quantifier": "every registry and every handler with any number of routes", "why_tests_cant": "requires all conflict positions in a handler's route list", "anchors": ["src/opensearch_sdk_py/rest/extension_rest_handlers.py:ExtensionRestHandlers.register"]}
{"id": "C33", "title": "REST dispatch picks the exact route first, then the first matching template", "statement": "For any registry, a request route is handled by the handler registered under exactly that key if there is one, otherwise by the earliest-registered handler whose wildcard key matches, otherwise an error is raised and no handler runs.", "quantifier": "every registry, every route string", "why_tests_cant": "arbitrary overlapping templates and registration orders", "anchors": ["src/opensearch_sdk_py/rest/extension_rest_handlers.py:ExtensionRestHandlers.handle"]}
{"id": "C34", "title": "Route placeholders match any text", "statement": "A registered template METHOD /a/{x}/b/{y} (literal parts free of glob characters and braces) matches exactly the routes obtained by substituting arbitrary text (possibly empty, possibly containing slashes) for each placeholder, and a template without placeholders matches only itself.", "quantifier": "every template and every route string", "why_tests_cant": "wildcard matching over unbounded strings", "anchors": ["src/opensearch_sdk_py/rest/extension_rest_handlers.py:ExtensionRestHandlers.register,handle", "src/opensearch_sdk_py/rest/named_route.py:NamedRoute"]}
{"id": "C35", "title": "Generated request ids are fresh", "statement": "Every message built without an explicit request id gets an id different from every id generated before in the process, in increasing order.", "quantifier": "every history of message constructions", "why_tests_cant": "arbitrary histories", "anchors": ["src/opensearch_sdk_py/transport/tcp_header.py:TcpHeader.id_iter,__init__"]}
{"id": "C36", "title": "Every reply carries the request's id, flags and thread context", "statement": "Whenever the host produces a reply to an incoming request (handshakes, REST execution, unknown action), the reply is a response frame with the request's id, handshake and compress flags and thread context.", "quantifier": "every host state, every incoming request with a non-zero id", "why_tests_cant": "all inputs and all histories; the falsy id 0 is a corner case", "anchors": ["src/opensearch_sdk_py/server/async_extension_host.py:AsyncExtensionHost.on_input", "src/opensearch_sdk_py/actions/internal/tcp_handshake_request_handler.py", "src/opensearch_sdk_py/actions/internal/transport_handshake_request_handler.py", "src/opensearch_sdk_py/actions/internal/extension_rest_request_handler.py", "src/opensearch_sdk_py/actions/internal/request_error_handler.py", "src/opensearch_sdk_py/transport/tcp_header.py:TcpHeader.__init__"]}
{"id": "C37", "title": "TCP handshake end to end", "statement": "For every well-formed internal:tcp/handshake request frame, in every host state, the host answers with a frame that decodes to the same request id and the SDK's current version.", "quantifier": "every host state, every non-zero request id, thread context, features, task id and peer version", "why_tests_cant": "all inputs and histories", "anchors": ["src/opensearch_sdk_py/actions/internal/tcp_handshake_request_handler.py:TcpHandshakeRequestHandler.handle"]}
{"id": "C38", "title": "REST request end to end", "statement": "For every well-formed REST execution frame whose route is registered and whose handler returns a response, the host answers with a frame whose body decodes to the handler's status, content type, content, headers, consumed parameters and content-consumed flag; the handler receives exactly the request that was encoded.", "quantifier": "every host state, registry, request and handler function", "why_tests_cant": "all inputs, all handlers", "anchors": ["src/opensearch_sdk_py/actions/internal/extension_rest_request_handler.py:ExtensionRestRequestHandler.handle"]}
{"id": "C39", "title": "Unknown actions get a 404", "statement": "A request whose action has no registered handler is answered with NOT_FOUND, JSON content type and a body naming the action, and changes no host state apart from the id counter.", "quantifier": "every host state, every action string", "why_tests_cant": "all action strings", "anchors": ["src/opensearch_sdk_py/server/async_extension_host.py:AsyncExtensionHost.on_input", "src/opensearch_sdk_py/actions/internal/action_not_found_request_error_handler.py"]}
{"id": "C40", "title": "The 404 body is valid JSON", "statement": "The body of the unknown-action reply is a well-formed JSON document whatever the action is.", "quantifier": "every action string", "why_tests_cant": "injection through arbitrary strings", "anchors": ["src/opensearch_sdk_py/actions/internal/action_not_found_request_error_handler.py:ActionNotFoundRequestErrorHandler"]}
{"id": "C41", "title": "Frame marker, length and version are validated", "statement": "A frame whose two-byte marker is not ES, whose declared size does not match, or whose version is incompatible is refused.", "quantifier": "every input byte string", "why_tests_cant": "all header bytes", "anchors": ["src/opensearch_sdk_py/transport/tcp_header.py:TcpHeader.read_from", "src/opensearch_sdk_py/server/async_extension_host.py:AsyncExtensionHost.on_input"]}
{"id": "C42", "title": "Pipelined frames are all processed", "statement": "If several complete frames arrive in one read from the socket, each is processed.", "quantifier": "every pair of frames arriving together", "why_tests_cant": "depends on network coalescing (schedule)", "anchors": ["src/opensearch_sdk_py/server/async_host.py:AsyncHost.on_connection"]}
{"id": "C43", "title": "Replies do not depend on segmentation", "statement": "However the byte stream of frames is split into socket reads (of at most 10 KiB), the host sends the same replies.", "quantifier": "every split of every byte stream", "why_tests_cant": "depends on network segmentation (schedule)", "anchors": ["src/opensearch_sdk_py/server/async_host.py:AsyncHost.on_connection"]}
{"id": "C44", "title": "Initialisation sequence", "statement": "An initialise-extension request makes the host send, in this order and each only after the peer's positive answer to the previous one: a register-REST-actions request naming the extension and its routes, an environment-settings request, and the initialise response carrying the original request id - with arbitrary other traffic in between that neither initialises again nor answers those ids.", "quantifier": "every host state and every interleaving of other inputs", "why_tests_cant": "protocol histories", "anchors": ["src/opensearch_sdk_py/actions/internal/discovery_extensions_request_handler.py", "src/opensearch_sdk_py/actions/internal/register_rest_actions_response_handler.py", "src/opensearch_sdk_py/actions/internal/environment_settings_response_handler.py"]}
{"id": "C45", "title": "A pending response handler runs at most once", "statement": "Each outstanding request of the host is matched by at most one response: after a response with that id was processed, later responses with the same id produce no output and change nothing (until the id is registered again, which never happens).", "quantifier": "every input history", "why_tests_cant": "arbitrary histories with duplicated responses", "anchors": ["src/opensearch_sdk_py/actions/response_handlers.py:ResponseHandlers.handle"]}
{"id": "C46", "title": "Outstanding requests never collide", "statement": "Registering a new outstanding request never overwrites another one, in any history: the ids under which handlers wait are pairwise distinct and all were generated by the host.", "quantifier": "every input history", "why_tests_cant": "invariant over all histories", "anchors": ["src/opensearch_sdk_py/actions/response_handlers.py:ResponseHandlers.register", "src/opensearch_sdk_py/actions/internal/discovery_extensions_request_handler.py"]}
{"id": "C47", "title": "Overlapping initialisations are each answered", "statement": "If two initialise-extension requests are in progress at the same time, each gets its own initialise response with its own request id.", "quantifier": "every interleaving of two initialisations", "why_tests_cant": "interleavings", "anchors": ["src/opensearch_sdk_py/actions/internal/discovery_extensions_request_handler.py:DiscoveryExtensionsRequestHandler.handle"]}
{"id": "C48", "title": "Unsolicited, error and negative responses are harmless", "statement": "A response with an unknown id, or flagged as an error, produces no output and leaves the outstanding requests as they were; a negative acknowledgement produces no output and removes only its own entry.", "quantifier": "every host state and every response frame", "why_tests_cant": "all histories and inputs", "anchors": ["src/opensearch_sdk_py/server/async_extension_host.py:AsyncExtensionHost.on_input", "src/opensearch_sdk_py/actions/internal/register_rest_actions_response_handler.py"]}
{"id": "C49", "title": "A bad input never kills a connection", "statement": "Whatever bytes a peer sends, the connection handler keeps serving the following reads on that connection and other connections, and the host state stays usable (its invariants hold), as long as accept does not fail (C89).", "quantifier": "every sequence of input chunks", "why_tests_cant": "all byte strings, all positions", "anchors": ["src/opensearch_sdk_py/server/async_host.py:AsyncHost.on_connection"]}
{"id": "C50", "title": "Concurrent connections: replies go back in order to the connection that asked", "statement": "Under every interleaving of any number of connections, the data sent on a connection is exactly the replies to the chunks received on that connection, in order, and the shared host state evolves as if the chunks had been handled one after another.", "quantifier": "every schedule of receives and sends over any number of connections", "why_tests_cant": "interleavings", "anchors": ["src/opensearch_sdk_py/server/async_host.py:AsyncHost.on_connection,async_run"]}
{"id": "C51", "title": "Every request gets some reply", "statement": "For every request frame the host sends a reply, possibly an error.", "quantifier": "every host state and input", "why_tests_cant": "all inputs, including handler failures", "anchors": ["src/opensearch_sdk_py/server/async_host.py:AsyncHost.on_connection", "src/opensearch_sdk_py/server/async_extension_host.py:AsyncExtensionHost.on_input"]}
{"id": "C52", "title": "Reading settings yields exactly the settings on the wire", "statement": "A freshly created Settings object that reads from a stream contains exactly the entries on the wire, independently of what other Settings objects read before.", "quantifier": "every sequence of Settings objects read in a process", "why_tests_cant": "histories: hidden sharing between objects", "anchors": ["src/opensearch_sdk_py/settings/settings.py:Settings.__init__,read_from", "src/opensearch_sdk_py/transport/environment_settings_response.py"]}
{"id": "C53", "title": "A present setting overrides the default", "statement": "Setting.get returns the parsed stored value when the key is present in the settings and the parsed default only when it is absent. (Violated for falsy stored values and for values whose text is empty: these give the default.)", "quantifier": "every settings content and every setting", "why_tests_cant": "all stored values, including falsy ones", "anchors": ["src/opensearch_sdk_py/settings/setting.py:Setting.get", "src/opensearch_sdk_py/settings/settings.py:Settings.get"]}
{"id": "C54", "title": "Integer and long settings stay within bounds", "statement": "If constructing an IntegerSetting/LongSetting succeeds, get either raises or returns a number within [min, max] (itself within the 32/64-bit range), and returns the default when the key is absent.", "quantifier": "every min, max, default, settings content and string", "why_tests_cant": "all strings and numbers", "anchors": ["src/opensearch_sdk_py/settings/integer_setting.py", "src/opensearch_sdk_py/settings/long_setting.py"]}
{"id": "C55", "title": "Time and byte-size settings stay within bounds across units", "statement": "If constructing a TimeValueSetting/ByteSizeValueSetting succeeds, get either raises or returns a value that is within the configured bounds when both are converted to nanoseconds/bytes, whatever the units; -1 means unbounded.", "quantifier": "every bound, default, settings content and string", "why_tests_cant": "all strings, numbers and units", "anchors": ["src/opensearch_sdk_py/settings/time_value_setting.py", "src/opensearch_sdk_py/settings/byte_size_value_setting.py", "src/opensearch_sdk_py/transport/time_value.py", "src/opensearch_sdk_py/transport/byte_size_value.py"]}
{"id": "C56", "title": "String settings only return validated values", "statement": "If a StringSetting with a validator constructs, get never returns a string the validator rejects.", "quantifier": "every validator, default and settings content", "why_tests_cant": "all strings and regexes", "anchors": ["src/opensearch_sdk_py/settings/string_setting.py", "src/opensearch_sdk_py/settings/regex_validator.py", "src/opensearch_sdk_py/settings/setting.py:Setting.get"]}
{"id": "C57", "title": "Time and byte-size values parse back from their text form", "statement": "parse(str(v)) equals v for every non-negative TimeValue and ByteSizeValue, and parsing either raises or yields a value whose magnitude is the leading digits and whose unit is a listed abbreviation.", "quantifier": "every magnitude and unit; every string", "why_tests_cant": "unbounded magnitudes; regex backtracking on arbitrary text", "anchors": ["src/opensearch_sdk_py/transport/time_value.py:TimeValue.parse,__str__", "src/opensearch_sdk_py/transport/byte_size_value.py:ByteSizeValue.parse,__str__"]}
{"id": "C58", "title": "Unit conversions are exact and monotone", "statement": "to_nanos and to_bytes convert exactly with the standard factor of the unit and preserve order, for every magnitude (no overflow).", "quantifier": "every integer magnitude and unit", "why_tests_cant": "unbounded magnitudes", "anchors": ["src/opensearch_sdk_py/transport/time_value.py:TimeValue.to_nanos", "src/opensearch_sdk_py/transport/byte_size_value.py:ByteSizeValue.to_bytes"]}
{"id": "C59", "title": "Setting parsers round-trip", "statement": "Every setting parser restored from the stream behaves as the one written: same bounds, key and filtered flag, accepting and rejecting the same values.", "quantifier": "every parser", "why_tests_cant": "all bounds and keys", "anchors": ["src/opensearch_sdk_py/settings/integer_setting.py", "src/opensearch_sdk_py/settings/long_setting.py", "src/opensearch_sdk_py/settings/time_value_setting.py", "src/opensearch_sdk_py/settings/byte_size_value_setting.py", "src/opensearch_sdk_py/settings/double_setting.py", "src/opensearch_sdk_py/settings/float_setting.py", "src/opensearch_sdk_py/settings/regex_validator.py"]}
{"id": "C60", "title": "The FILTERED property reaches the parser", "statement": "A setting created with the FILTERED property has a parser that reports is_filtered.", "quantifier": "every property list", "why_tests_cant": "the flag is computed from a nested tuple for every property combination", "anchors": ["src/opensearch_sdk_py/settings/integer_setting.py", "src/opensearch_sdk_py/settings/long_setting.py", "src/opensearch_sdk_py/settings/double_setting.py", "src/opensearch_sdk_py/settings/float_setting.py", "src/opensearch_sdk_py/settings/time_value_setting.py"]}
{"id": "C61", "title": "Protobuf payloads of extension requests round-trip", "statement": "RegisterRestActionsRequest and ExtensionTransportRequest are restored by reading what they wrote: unique id, REST actions, deprecated actions, request type.", "quantifier": "every id, every list of routes, every request type", "why_tests_cant": "unbounded strings and lists", "anchors": ["src/opensearch_sdk_py/transport/register_rest_actions_request.py", "src/opensearch_sdk_py/transport/extension_transport_request.py", "src/opensearch_sdk_py/protobuf/RegisterRestActionsProto_pb2.py"]}
{"id": "C62", "title": "Ephemeral node ids are well-formed and injective", "statement": "The ephemeral id generated for a node is 22 URL-safe base64 characters without padding, and different UUIDs give different ids.", "quantifier": "every 128-bit UUID", "why_tests_cant": "2^128 values", "anchors": ["src/opensearch_sdk_py/transport/discovery_node.py:DiscoveryNode.__init__"]}
{"id": "C63", "title": "Request id 0 is echoed in the reply", "statement": "A request whose id is 0 is answered with a reply carrying id 0, as for any other id. (Violated: the reply constructor treats 0 as \"no id given\" and draws a fresh id from the global counter.)", "quantifier": "every host state and every answered request with id 0", "why_tests_cant": "a test fixes one id; the claim is about every state and payload", "anchors": ["src/opensearch_sdk_py/transport/tcp_header.py: TcpHeader.__init__", "src/opensearch_sdk_py/actions/request_handler.py"]}
{"id": "C64", "title": "Transport handshake end to end", "statement": "On any well-formed transport-handshake request frame with non-zero id, the host answers with exactly one frame, a response with the same id, flags and thread context, whose body is a TransportServiceHandshakeResponse describing the hello-world discovery node, cluster name and current version.", "quantifier": "every host state, every non-zero request id, thread context, features, task id and trailing bytes", "why_tests_cant": "the unit test fixes one captured frame; the claim ranges over all states, ids and contexts", "anchors": ["src/opensearch_sdk_py/actions/internal/transport_handshake_request_handler.py"]}
{"id": "C65", "title": "A stop request lets at most one more chunk per connection through", "statement": "Once the server's terminating flag is set, at most one further connection is accepted and each connection handles at most one further chunk; the next chunk handled on any connection is still answered, then the accept loop ends and every connection is closed.", "quantifier": "every schedule of events after the stop request, any number of connections", "why_tests_cant": "all interleavings of stop, reads, partial sends and accepts", "anchors": ["src/opensearch_sdk_py/server/async_host.py:AsyncHost.async_run,on_connection"]}
{"id": "C66", "title": "A stop request ends the server", "statement": "After the terminating flag is set the accept loop ends without needing further traffic from peers. (Violated: the flag is only looked at after a chunk or an accept; until a peer sends or connects the server keeps running, even when all peers disconnect.)", "quantifier": "every history before and after the stop request", "why_tests_cant": "liveness over all schedules; the unit test's client always sends data", "anchors": ["src/opensearch_sdk_py/server/async_host.py:AsyncHost.async_run,on_connection"]}
{"id": "C67", "title": "An absent setting has its default", "statement": "For every setting object that could be constructed, get on settings without its key returns the default value it was constructed with. (Violated by TimeValueSetting and ByteSizeValueSetting with a negative default, including the MINUS_ONE the classes define: get raises ValueError.)", "quantifier": "all setting classes, defaults, bounds and stored settings without the key", "why_tests_cant": "the default goes through text and back; a test checks a few defaults, the property ranges over all numbers, units and texts", "anchors": ["src/opensearch_sdk_py/settings/setting.py:Setting.get", "src/opensearch_sdk_py/settings/boolean_setting.py", "src/opensearch_sdk_py/settings/string_setting.py", "src/opensearch_sdk_py/settings/version_setting.py", "src/opensearch_sdk_py/settings/time_value_setting.py", "src/opensearch_sdk_py/settings/byte_size_value_setting.py"]}
{"id": "C68", "title": "Floating-point settings stay within bounds and are never NaN", "statement": "If constructing a FloatSetting or DoubleSetting succeeds, get either raises or returns a number, not NaN, between the bounds, and the default when the key is absent; NaN bounds or defaults cannot be constructed.", "quantifier": "all doubles as default and bounds, all stored values", "why_tests_cant": "2^64 bit patterns per parameter, and NaN comparisons behave unlike any sampled number", "anchors": ["src/opensearch_sdk_py/settings/float_setting.py", "src/opensearch_sdk_py/settings/double_setting.py", "src/opensearch_sdk_py/settings/setting.py:Setting.get"]}
{"id": "C69", "title": "A setting's type names its class", "statement": "The type of every setting object is the Setting.Type of its class. (Violated: LongSetting reports INTEGER, ByteSizeValueSetting reports TIME_VALUE.)", "quantifier": "all setting classes and constructor arguments", "why_tests_cant": "must hold for all constructor arguments; the tests never look at type", "anchors": ["src/opensearch_sdk_py/settings/long_setting.py", "src/opensearch_sdk_py/settings/byte_size_value_setting.py", "src/opensearch_sdk_py/settings/setting.py:Setting.Type"]}
{"id": "C70", "title": "Optional values", "statement": "Each read_optional_* (int, long, v_long, string, string array) reads a flag byte and then, only when the flag is 1, exactly what the plain reader reads; flag 0 means absent and consumes that one byte; any other flag byte raises. An optional value written as flag plus value is restored, present or absent.", "quantifier": "every byte string, every representable value", "why_tests_cant": "the flag byte and the payload range over all inputs; tests check one present and one absent case", "anchors": ["src/opensearch_sdk_py/transport/stream_input.py:StreamInput.read_optional_int,read_optional_long,read_optional_v_long,read_optional_string,read_optional_string_array"]}
{"id": "C71", "title": "Constructing an extension registers every route or raises", "statement": "Constructing an ActionExtension succeeds exactly when no two of its routes have the same method and the same path up to placeholder names, within one handler or across handlers; then every route of every handler is registered with its handler and advertised, in order; otherwise the construction raises.", "quantifier": "every list of handlers with every list of routes", "why_tests_cant": "conflicts depend on all pairs of routes of arbitrary lists", "anchors": ["src/opensearch_sdk_py/api/action_extension.py:ActionExtension.__init__,named_routes", "src/opensearch_sdk_py/rest/extension_rest_handlers.py:ExtensionRestHandlers.register"]}
{"id": "C72", "title": "Handlers only see requests for their own routes", "statement": "A REST handler of a constructed extension is only ever called with requests whose method and path fit one of the routes that handler itself registered, and a request fitting some registered route is always passed to a handler.", "quantifier": "every extension, method and path", "why_tests_cant": "dispatch uses pattern matching on arbitrary paths against arbitrary tables", "anchors": ["src/opensearch_sdk_py/rest/extension_rest_handlers.py:ExtensionRestHandlers.handle", "src/opensearch_sdk_py/rest/named_route.py:NamedRoute"]}
{"id": "C73", "title": "The hello sample greets, end to end", "statement": "Every well-formed GET /hello or GET /hello/<anything> request frame sent to the hello sample is answered with status OK, plain text and the greeting of the name parameter (or the anonymous greeting), reporting name as consumed and nothing else changed; any other method or path raises and sends nothing.", "quantifier": "every frame, parameter value, path suffix, host state and random choice", "why_tests_cant": "the sample's tests send two fixed requests", "anchors": ["samples/hello/hello_rest_handler.py:HelloRestHandler", "samples/hello/hello_extension.py:HelloExtension", "src/opensearch_sdk_py/actions/internal/extension_rest_request_handler.py:ExtensionRestRequestHandler.handle"]}
{"id": "C74", "title": "The CRUD sample makes exactly one client call per request, end to end", "statement": "Every well-formed POST/GET/PUT/DELETE request frame for /crud makes exactly the documented client call with the request's content and parameters; the reply carries the client's answer as JSON with status OK, and reports exactly what was consumed; if the client raises nothing is sent. Any other method or path raises without calling the client, so the handler's malformed last branch is unreachable.", "quantifier": "every frame, every client behaviour, every host state", "why_tests_cant": "the client's behaviour and the requests are unbounded; the sample has no tests", "anchors": ["samples/crud/crud_handler.py:CRUDRestHandler", "samples/crud/crud_extension.py:CRUDExtension"]}
{"id": "C75", "title": "The extension reports itself initialised only after its registration was acknowledged", "statement": "Over the whole life of a host, the initialise response is sent only after an initialise-extension request made the host send a registration request, a positive acknowledgement of that registration made it send a settings request, and that settings request was answered, in this order.", "quantifier": "every history of inputs, from every start state, with any other activity in between", "why_tests_cant": "the order has to hold for every interleaving of frames from any number of connections", "anchors": ["src/opensearch_sdk_py/server/async_extension_host.py:AsyncExtensionHost.on_input", "src/opensearch_sdk_py/actions/response_handlers.py:ResponseHandlers", "src/opensearch_sdk_py/actions/internal/discovery_extensions_request_handler.py:DiscoveryExtensionsRequestHandler.handle", "src/opensearch_sdk_py/actions/internal/register_rest_actions_response_handler.py", "src/opensearch_sdk_py/actions/internal/environment_settings_response_handler.py"]}
{"id": "C76", "title": "The host never speaks unprompted", "statement": "Whatever the state and the input, everything the host sends is one of: the answer to the request just received; the registration request, on an initialise-extension request, with a fresh id it now awaits; the settings request, on a positive acknowledgement of an awaited id; a response, on a response to an awaited id.", "quantifier": "every reachable state and every input", "why_tests_cant": "an output on an unexpected input shows only for that input", "anchors": ["src/opensearch_sdk_py/server/async_extension_host.py:AsyncExtensionHost.on_input", "src/opensearch_sdk_py/actions/response_handlers.py:ResponseHandlers", "src/opensearch_sdk_py/actions/internal/discovery_extensions_request_handler.py:DiscoveryExtensionsRequestHandler.handle", "src/opensearch_sdk_py/actions/internal/register_rest_actions_response_handler.py", "src/opensearch_sdk_py/actions/internal/environment_settings_response_handler.py"]}
{"id": "C77", "title": "What the host remembers is bounded by the initialisations", "statement": "At most two request ids per initialise-extension request received are ever awaited: other requests, responses, errors and garbage leave nothing behind.", "quantifier": "every history of inputs", "why_tests_cant": "a leak shows only over long histories", "anchors": ["src/opensearch_sdk_py/server/async_extension_host.py:AsyncExtensionHost.on_input", "src/opensearch_sdk_py/actions/response_handlers.py:ResponseHandlers", "src/opensearch_sdk_py/actions/internal/discovery_extensions_request_handler.py:DiscoveryExtensionsRequestHandler.handle", "src/opensearch_sdk_py/actions/internal/register_rest_actions_response_handler.py", "src/opensearch_sdk_py/actions/internal/environment_settings_response_handler.py"]}
{"id": "C78", "title": "Every response answers a request that was received", "statement": "Every response the host ever sends has the id, flags and context of a request it received: the one it is handling, or an earlier initialise-extension request (request ids other than 0).", "quantifier": "every history of inputs", "why_tests_cant": "whether an id was received depends on the whole history", "anchors": ["src/opensearch_sdk_py/server/async_extension_host.py:AsyncExtensionHost.on_input", "src/opensearch_sdk_py/actions/response_handlers.py:ResponseHandlers", "src/opensearch_sdk_py/actions/internal/discovery_extensions_request_handler.py:DiscoveryExtensionsRequestHandler.handle", "src/opensearch_sdk_py/actions/internal/register_rest_actions_response_handler.py", "src/opensearch_sdk_py/actions/internal/environment_settings_response_handler.py"]}
{"id": "C79", "title": "Every frame the host sends is well-formed on the wire", "statement": "Everything the host writes is one frame: the two marker bytes ES, a 4-byte size that counts exactly the bytes after it (if the thread-context texts are ASCII or shorter than 128 bytes, see C22), an 8-byte request id, a status byte with no bit outside request/response, compress and handshake, the minimum compatible version 7099999 (bytes 08 6C 56 5F), a 4-byte variable-header length that counts exactly the variable header, the thread context, the variable header and the body.", "quantifier": "every reachable state and every input that makes the host send something", "why_tests_cant": "a wrong length or flag shows only for particular contexts, features and bodies", "anchors": ["src/opensearch_sdk_py/transport/tcp_header.py:TcpHeader.write_to", "src/opensearch_sdk_py/transport/outbound_message.py:OutboundMessage.write_to", "src/opensearch_sdk_py/server/async_extension_host.py:AsyncExtensionHost.on_input"]}
{"id": "C80", "title": "A decoder depends only on the bytes it consumes", "statement": "Every read operation (primitive values, strings, arrays, dicts, generic values, headers, whole messages, setting parsers, settings) leaves exactly the end of the input that it did not consume, and, unless it used up the whole input, returns the same value from the consumed bytes whatever follows them.", "quantifier": "all decoders, all inputs, all continuations of the input", "why_tests_cant": "Tests feed a decoder one buffer that ends where the message ends; they cannot show that no other bytes following it change the result.", "anchors": ["src/opensearch_sdk_py/transport/stream_input.py:StreamInput", "src/opensearch_sdk_py/transport/outbound_message.py:OutboundMessage.read_from"]}
{"id": "C81", "title": "Encodings are uniquely decodable", "statement": "If two byte streams that begin with the encodings of two values of the same type (both within the documented ranges) are equal, then the values are equal and so is what follows: no value's encoding is a prefix of, or equal to, another's.", "quantifier": "all pairs of values of each type and all continuations", "why_tests_cant": "Distinctness of the encodings of every pair of values, with anything after them, is not a finite set of cases.", "anchors": ["src/opensearch_sdk_py/transport/stream_output.py:StreamOutput"]}
{"id": "C82", "title": "Exactly which bytes the varint decoders accept", "statement": "read_v_int returns the number denoted by the base-128 groups, padded encodings included, when at most four continuation bytes precede the last one, and raises otherwise; read_v_long does so for at most eight, or nine and a last byte 0 or 1; at the end of the input the groups that are there count. So results are never negative and stay below 2^35 and 2^64.", "quantifier": "all byte sequences", "why_tests_cant": "The set of inputs is infinite and includes encodings no writer of this library produces.", "anchors": ["src/opensearch_sdk_py/transport/stream_input.py:read_v_int,read_v_long"]}
{"id": "C83", "title": "The type tags of generic values", "statement": "read_generic_value reads tag -1 as None, 0 as a string, 1, 2, 11 and 16 as a big-endian two's-complement integer of 4, 8, 1 and 2 bytes, 5 as a boolean, 6 as a byte array, 7 as a counted list of tagged values, and raises for each of the other 247 tags.", "quantifier": "all tags, payloads, continuations and remaining recursion limits", "why_tests_cant": "Writers of this library never produce tags 1, 11 and 16; payloads and continuations are unbounded.", "anchors": ["src/opensearch_sdk_py/transport/stream_input.py:read_generic_value"]}
{"id": "C84", "title": "Floats and doubles on the wire", "statement": "Doubles are written as their eight big-endian bytes and restored bit for bit. A finite float below 2^128 - 2^103 in magnitude is written as the nearest single-precision number (ties to even) of the same sign in four bytes, a larger one raises OverflowError and writes nothing; infinities and NaNs stay what they are; reading a float gives the double that denotes the same number.", "quantifier": "all 2^64 doubles and all 2^32 singles, compared with every other single", "why_tests_cant": "2^64 values, each compared with every single-precision number.", "anchors": ["src/opensearch_sdk_py/transport/stream_output.py:write_float,write_double", "src/opensearch_sdk_py/transport/stream_input.py:read_float,read_double"]}
{"id": "C85", "title": "Which environment settings the extension sees", "statement": "Only a non-error answer to an outstanding environment-settings request changes the process's settings: its entries, as far as they can be decoded, are added, each key holding the value received last, over any number of answers; keys not mentioned keep their values. An answer that cannot be decoded to the end raises, sends nothing and is not waited for again, but the entries before the undecodable one stay.", "quantifier": "all host states, all inputs and all histories of inputs, all answer bodies (well-formed or not)", "why_tests_cant": "Ranges over unbounded histories and arbitrary answer bytes, including every point at which decoding can fail.", "anchors": ["src/opensearch_sdk_py/actions/internal/environment_settings_response_handler.py:EnvironmentSettingsResponseHandler.handle", "src/opensearch_sdk_py/settings/settings.py:Settings.read_from", "src/opensearch_sdk_py/server/async_extension_host.py:AsyncExtensionHost.on_input"]}
{"id": "C86", "title": "Settings declared without bounds", "statement": "An integer (long) setting declared without bounds accepts as default, and gives back when it is configured as text, exactly the 32-bit (64-bit) integers, and raises for other numbers; float and double settings accept as default every value except NaN and give back every text that is a float other than NaN; time and byte-size settings accept every duration (size) as default and give back every text that can be parsed as one.", "quantifier": "all keys, defaults, properties and configured values of the six numeric setting types", "why_tests_cant": "Ranges over all integers, all doubles and all texts; the default bounds matter only at their edges.", "anchors": ["src/opensearch_sdk_py/settings/integer_setting.py:IntegerSetting", "src/opensearch_sdk_py/settings/long_setting.py:LongSetting", "src/opensearch_sdk_py/settings/float_setting.py:FloatSetting", "src/opensearch_sdk_py/settings/double_setting.py:DoubleSetting", "src/opensearch_sdk_py/settings/time_value_setting.py:TimeValueSetting", "src/opensearch_sdk_py/settings/byte_size_value_setting.py:ByteSizeValueSetting"]}
{"id": "C87", "title": "Wildcards and sets in registered paths", "statement": "The path of a registered route is a pattern: `?` stands for any one character, `*` and `{name}` for any text (also with slashes, also empty), `[abc]`, `[a-z]` for one character in the set (a range that goes downwards, `[z-a]`, holds none), `[!...]` for one that is not, and all other text for itself, as do a `]` at the start of a set, a hyphen at its start, at its end or right behind a range, a `[` with no `]` and a `{` with no `}` behind it. A request reaches the handler of the only registered route exactly if its method and path are covered by that pattern or equal the registered key.", "quantifier": "all patterns made of text, wildcards, sets and placeholders, all routes, all registries", "why_tests_cant": "Ranges over patterns and paths of unbounded length.", "anchors": ["src/opensearch_sdk_py/rest/extension_rest_handlers.py:ExtensionRestHandlers.handle", "src/opensearch_sdk_py/rest/named_route.py:NamedRoute.key"]}
{"id": "C88", "title": "Configured boolean, version and text settings", "statement": "A boolean setting is True exactly if True or the text `true` in any casing is configured; any other non-empty text and any non-zero number reads as False, a configured False as the default. A version setting gives the version with the configured id, given as text or number, and raises for texts that are not numbers. A text setting gives the configured text unchanged, if its validator accepts it, and raises the validator's error otherwise.", "quantifier": "all keys, defaults, validators, properties and configured texts (ASCII for booleans), numbers and booleans", "why_tests_cant": "Ranges over all texts and numbers that can be configured.", "anchors": ["src/opensearch_sdk_py/settings/boolean_setting.py:BooleanSetting", "src/opensearch_sdk_py/settings/version_setting.py:VersionSetting", "src/opensearch_sdk_py/settings/string_setting.py:StringSetting", "src/opensearch_sdk_py/settings/setting.py:Setting.get", "src/opensearch_sdk_py/settings/settings.py:Settings.get"]}
{"id": "C89", "title": "The server serves until it is asked to stop", "statement": "As long as nobody sets the terminating flag, the accept loop keeps running: new peers can connect and open connections are served. (Violated: if accept fails once, e.g. because the process has too many open files, the exception ends the loop; all connections are closed in the middle of their answers.)", "quantifier": "every history of connections, reads, sends and failures, every point at which accept fails", "why_tests_cant": "Ranges over all schedules and crash points; accept failures are not provoked by unit tests.", "anchors": ["src/opensearch_sdk_py/server/async_host.py:AsyncHost.async_run"]}
{"id": "C90", "title": "A frame marked compressed is compressed", "statement": "The marks (status bits) of every frame the extension sends are true of it: a request is marked neither response, compressed nor handshake; a response is marked as a response, never as an error, and carries the handshake mark exactly if the request it answers did; a frame marked compressed has a compressed body. (Violated: the reply to a request marked compressed is marked compressed although its body is plain.)", "quantifier": "every history of frames from any peers, every frame sent", "why_tests_cant": "Ranges over all histories and all combinations of marks; unit tests look at a few fixed frames.", "anchors": ["src/opensearch_sdk_py/actions/request_handlers.py", "src/opensearch_sdk_py/transport/tcp_header.py:TcpHeader", "src/opensearch_sdk_py/transport/outbound_message.py:OutboundMessage.write_to"]}
{"id": "C91", "title": "Answers do not depend on other traffic", "statement": "What the extension answers to a request (other than initialise-extension, and with a non-zero id) depends only on the bytes of that request and on the extension's own handler state: earlier handshakes, initialisations, environment settings, malformed frames and unknown actions, from this peer or any other, make no difference; if the handlers keep no state nothing earlier does.", "quantifier": "every sequence of earlier inputs, every request, every extension", "why_tests_cant": "Non-interference compares all pairs of histories; tests run single ones.", "anchors": ["src/opensearch_sdk_py/server/host.py:Host.on_input", "src/opensearch_sdk_py/actions/request_handlers.py", "src/opensearch_sdk_py/actions/internal/extension_rest_request_handler.py"]}
{"id": "C92", "title": "No amplification", "statement": "A frame the extension sends is, apart from a REST handler's own content and a constant given by the extension's name, interfaces and routes, not longer than a frame it received: nothing a peer sends (context headers, features, action names, announced sizes) is blown up or repeated more than once in a reply, however malformed the frame.", "quantifier": "every history, every frame received, well-formed or not", "why_tests_cant": "Ranges over all byte strings, among them those whose announced sizes exceed the data.", "anchors": ["src/opensearch_sdk_py/transport/thread_context_struct.py:ThreadContextStruct", "src/opensearch_sdk_py/transport/outbound_message.py:OutboundMessage", "src/opensearch_sdk_py/actions/internal/request_error_handler.py", "src/opensearch_sdk_py/server/async_extension_host.py:AsyncExtensionHost.on_input"]}
{"id": "C93", "title": "The initialise response goes to the peer that asked for it", "statement": "However peers connect, and in whatever order their frames arrive, every response the extension sends on a connection answers a request read on that same connection, provided the peers only answer requests they were sent. (Violated: there is one slot for the initialise response for all connections; if a second peer asks for an initialisation while the first one's is in progress, the first peer is sent the response to the second peer's request. Proved: it answers the request just read, or finishes an initialisation asked for on that connection, and then, if no other connection asked for one in between, it answers an initialise-extension request of that connection.)", "quantifier": "every schedule of connections, frames and writes, every history", "why_tests_cant": "Only an interleaving of two initialisations shows it; a test has one peer.", "anchors": ["src/opensearch_sdk_py/actions/internal/discovery_extensions_request_handler.py", "src/opensearch_sdk_py/server/async_extension_host.py:AsyncExtensionHost.on_input", "src/opensearch_sdk_py/server/async_host.py:AsyncHost.on_connection"]}
{"id": "C94", "title": "A handler sees the whole request", "statement": "A REST handler is run on exactly the request the peer sent, once the whole of it has arrived: all of its content, its principal token and its HTTP version; the extension's own state changes in no other way. (Violated: one read is taken for one request; when a read ends within the content, as it always does for a frame whose content crosses the limit of 10240 bytes, the handler is run on the part that has arrived, with an empty principal token and HTTP 1.0, and its answer is sent. Proved: a handler is run at most once per read, on what was read, and on the whole request if the read has the whole frame.)", "quantifier": "every host state, every REST frame, every point at which a read may end", "why_tests_cant": "Ranges over all frames and all ways the network may cut them; a test delivers a frame whole.", "anchors": ["src/opensearch_sdk_py/rest/extension_rest_request.py:ExtensionRestRequest.read_from", "src/opensearch_sdk_py/transport/stream_input.py:StreamInput.read_bytes", "src/opensearch_sdk_py/actions/internal/extension_rest_request_handler.py", "src/opensearch_sdk_py/server/async_host.py:AsyncHost.on_connection"]}
{"id": "C95", "title": "Which handler gets a message", "statement": "After serve(), and whatever further request handlers are registered, a request goes to the handler registered last for its action and to no other; its result is what is sent, or, if it returns nothing, a 404; all other messages are handled as if nothing had been registered. A response goes to the handler registered last for its id, and only if no response with that id came before: every response handler runs at most once, also if it raises.", "quantifier": "every sequence of registrations and responses, every input and host state, every handler", "why_tests_cant": "Ranges over all registration sequences and all handlers a user may write.", "anchors": ["src/opensearch_sdk_py/actions/request_handlers.py:RequestHandlers.register,handle", "src/opensearch_sdk_py/actions/response_handlers.py:ResponseHandlers.register,handle", "src/opensearch_sdk_py/server/async_extension_host.py:AsyncExtensionHost.serve,on_input"]}
{"id": "C96", "title": "Protocol-buffer messages of other versions", "statement": "A register-rest-actions or extension request written by any proto3 writer - fields in any order, unknown fields of any number and kind (also groups, nested to the protobuf library's limit of 100), padded varints, the identity split over several sub-messages - is read with the strings of fields 2 and 3 in order, the last unique id given, and as request type the low 32 bits (signed) of the last value of field 2; the bytes after it are left. Any other bytes are refused with a decode error. What the extension writes is such a message, with each value in its field and nothing else.", "quantifier": "every byte string of less than 2^31 bytes, well-formed or not; every unique id, action list and request type", "why_tests_cant": "Ranges over all byte strings a newer or older peer may send; a test covers the writer of the same version.", "anchors": ["src/opensearch_sdk_py/transport/register_rest_actions_request.py:RegisterRestActionsRequest.read_from,write_to", "src/opensearch_sdk_py/transport/extension_transport_request.py:ExtensionTransportRequest.read_from,write_to", "src/opensearch_sdk_py/protobuf/RegisterRestActionsProto.proto", "src/opensearch_sdk_py/protobuf/ExtensionRequestProto.proto"]}
{"id": "C97", "title": "The text of a REST request tells the request", "statement": "str(request) of an ExtensionRestRequest, which is what is logged when one arrives, tells its HTTP version, method, URI, path, parameters, headers, media type, content length and identity token: requests that differ in one of these have different texts.", "quantifier": "every two REST requests", "why_tests_cant": "Ranges over all pairs of requests; the unit test looks for a few words in one text.", "anchors": ["src/opensearch_sdk_py/rest/extension_rest_request.py:ExtensionRestRequest.__str__", "src/opensearch_sdk_py/actions/internal/extension_rest_request_handler.py:ExtensionRestRequestHandler.handle"]}
{"id": "C98", "title": "One message, one line of the log", "statement": "Every record logged about a received or sent message takes exactly one line: nothing a peer sends can break a record into several lines or make up lines of its own.", "quantifier": "every byte string received, every request, REST request, initialisation and reply, every locale table of printable characters", "why_tests_cant": "Ranges over all contents a peer may choose, including line breaks in every text of every message.", "anchors": ["src/opensearch_sdk_py/server/async_extension_host.py:AsyncExtensionHost.on_input", "src/opensearch_sdk_py/transport/outbound_message_request.py:OutboundMessageRequest.__str__", "src/opensearch_sdk_py/transport/discovery_node.py:DiscoveryNode.__str__", "src/opensearch_sdk_py/rest/extension_rest_request.py:ExtensionRestRequest.__str__", "src/opensearch_sdk_py/actions/request_handler.py:RequestHandler.send"]}
{"id": "C99", "title": "The log identifies the message", "statement": "What is logged when a request arrives determines its request id, size, flags, thread context, features and action, and the text of a version below 100.0.0.0 determines the version.", "quantifier": "every two received requests with the protocol's prefix, whatever their texts contain; every two release versions", "why_tests_cant": "An injectivity statement over all pairs of messages, with texts chosen to imitate the punctuation.", "anchors": ["src/opensearch_sdk_py/server/async_extension_host.py:AsyncExtensionHost.on_input", "src/opensearch_sdk_py/transport/tcp_header.py:TcpHeader.__str__", "src/opensearch_sdk_py/transport/network_message.py:NetworkMessage.__str__", "src/opensearch_sdk_py/transport/thread_context_struct.py:ThreadContextStruct.__str__", "src/opensearch_sdk_py/transport/version.py:Version.__str__"]}
{"id": "C100", "title": "Identity tokens stay out of the log", "statement": "The identity token (principal_identifier_token) of a REST request is not written to the log of the extension.", "quantifier": "every REST request with a token of printable ASCII, and every read that contains it", "why_tests_cant": "A statement about every record of every request; a test would have to look for the token of each.", "anchors": ["src/opensearch_sdk_py/server/async_host.py:AsyncHost.on_connection", "src/opensearch_sdk_py/actions/internal/extension_rest_request_handler.py:ExtensionRestRequestHandler.handle", "src/opensearch_sdk_py/rest/extension_rest_request.py:ExtensionRestRequest.__str__"]}
{"id": "C101", "title": "A setting has the properties it was given", "statement": "After constructing a setting of any class with properties (DYNAMIC, NODE_SCOPE, ...), each of them is in setting.properties. (Violated by every class and every property: the properties are handed on as one argument, so setting.properties holds a single tuple.)", "quantifier": "all setting classes, constructor arguments and properties", "why_tests_cant": "A statement about every class, argument list and property.", "anchors": ["src/opensearch_sdk_py/settings/setting.py:Setting.__init__", "src/opensearch_sdk_py/settings/integer_setting.py:IntegerSetting.__init__", "src/opensearch_sdk_py/settings/string_setting.py:StringSetting.__init__"]}
{"id": "C102", "title": "A response has its own headers", "statement": "Whatever responses are constructed and whatever headers are set on them, each response is sent with exactly the headers it was constructed with and those set on it. (Holds for responses constructed with a dict of headers. Violated by all others: they share one dict for the life of the process, so each is sent with every header ever set on any of them - also in answers to other requests of other peers.)", "quantifier": "all sequences of constructions of responses and settings of headers; all pairs of requests", "why_tests_cant": "The leak depends on the history of the whole process; a test with one response, or with a fresh process per test, sees nothing.", "anchors": ["src/opensearch_sdk_py/rest/extension_rest_response.py:ExtensionRestResponse.__init__", "src/opensearch_sdk_py/actions/internal/extension_rest_request_handler.py:ExtensionRestRequestHandler.handle"]}
{"id": "C103", "title": "Fields other versions add survive being passed on", "statement": "A register-rest-actions or extension request that was read, with any fields the extension does not know, in the message or in its identity, is written again with the known fields first and then every byte of the unknown ones in their order; a list of REST actions does not become longer; and reading it again gives the same object. An object never holds unknown bytes that are not well-formed fields.", "quantifier": "every byte string that is read as such a message (below 2^31 bytes), with fields of any number and wire type, groups included", "why_tests_cant": "The fields are those of versions that do not exist yet; a test covers the present schema.", "anchors": ["src/opensearch_sdk_py/transport/register_rest_actions_request.py:RegisterRestActionsRequest.read_from,write_to", "src/opensearch_sdk_py/transport/extension_transport_request.py:ExtensionTransportRequest.read_from,write_to", "src/opensearch_sdk_py/protobuf/ExtensionIdentityProto.proto"]}
{"id": "C104", "title": "The life of a connection", "statement": "While the server runs and no stop was asked for, every further peer is accepted and nothing else changes. A peer that goes while its handler waits has exactly its connection closed. A closed connection stays closed: nothing more is read from it or sent on it. While an answer is being sent nothing is read from that connection, until every byte of it has been taken or the send failed; and once as many bytes as the answer has were taken, in any pieces and with anything happening on other connections, the peer has been sent the whole answer and the handler waits again. At no time is an open connection stuck.", "quantifier": "all extensions, server states, connections, runs, sizes of the pieces the operating system takes", "why_tests_cant": "Every interleaving of connections and every split of every answer.", "anchors": ["src/opensearch_sdk_py/server/async_host.py:AsyncHost.async_run,on_connection"]}
{"id": "C105", "title": "Texts are the same for the extension and for the node", "statement": "A text the extension writes has the bytes an OpenSearch node writes for it (count of UTF-16 code units, then each unit in one to three bytes), and the extension reads what a node writes. (Holds exactly for ASCII texts. Violated by every other text: the extension counts UTF-8 bytes, so it raises or returns a shorter text and reads all that follows from the wrong place.)", "quantifier": "all Unicode strings (to 2^31 units), whatever follows them", "why_tests_cant": "The tests use ASCII texts, or texts written by the same code; the claim is about every text and the other implementation's format.", "anchors": ["src/opensearch_sdk_py/transport/stream_output.py:StreamOutput.write_string", "src/opensearch_sdk_py/transport/stream_input.py:StreamInput.read_string"]}
{"id": "C106", "title": "Every answer is delivered", "statement": "In every infinite run in which the operating system keeps taking bytes of what is to be sent on a connection, no send on it fails and the accept loop runs: whenever a chunk is read on the connection to which the host has an answer (in particular a well-formed handshake or REST request frame, in whatever state the host is), the peer has at some later time been sent exactly this answer after all that was sent before, and the handler then reads again or has closed the connection because a stop was asked for. Nothing is assumed about other connections: they may be blocked for ever.", "quantifier": "all extensions, infinite schedules, connections, chunk contents, sizes of the pieces the operating system takes", "why_tests_cant": "An eventuality over all infinite interleavings.", "anchors": ["src/opensearch_sdk_py/server/async_host.py:AsyncHost.on_connection", "src/opensearch_sdk_py/server/async_extension_host.py:AsyncExtensionHost.on_input"]}
{"id": "C107", "title": "An initialisation completes on a running server", "statement": "On a running server with any number of other connections, in every infinite run that is fair to one connection: an initialise-extension request read on it is followed on the same connection by a complete register-REST-actions request naming the extension and its routes; the node's positive acknowledgement by a complete environment-settings request; and the node's settings by the complete initialise response with the id, marks and context of the request, the settings then being those of the process (other keys keep their values). Whatever is received in between, on this and other connections, except another initialisation or a response with one of these two ids, changes nothing about this.", "quantifier": "all extensions, infinite schedules, numbers of connections, interleaved traffic, settings, sizes of the pieces the operating system takes", "why_tests_cant": "An eventuality over all infinite interleavings of many peers.", "anchors": ["src/opensearch_sdk_py/server/async_host.py:AsyncHost.on_connection", "src/opensearch_sdk_py/server/async_extension_host.py:AsyncExtensionHost.on_input", "src/opensearch_sdk_py/actions/internal/discovery_extensions_request_handler.py", "src/opensearch_sdk_py/actions/internal/register_rest_actions_response_handler.py", "src/opensearch_sdk_py/actions/internal/environment_settings_response_handler.py"]}
{"id": "C108", "title": "Transport addresses are made from exactly the dotted texts", "statement": "TransportAddress(text, port, host) accepts text exactly if it is the usual notation of an IPv4 address (four decimal numbers below 256 without leading zeros, separated by dots) and then has that address, the port, and the given host name or, without one, the text; anything else raises AddressValueError. Every one of the 2^32 addresses has exactly one such text, which is how it is shown, and a node made with it has the text as host name and host address.", "quantifier": "all texts, ports and host names, all 2^32 addresses", "why_tests_cant": "2^32 addresses and infinitely many other texts.", "anchors": ["src/opensearch_sdk_py/transport/transport_address.py:TransportAddress.__init__", "src/opensearch_sdk_py/transport/discovery_node.py:DiscoveryNode.__init__"]}
{"id": "C109", "title": "A transport address can be used as the IPv4 address it is", "statement": "TransportAddress is a subclass of ipaddress.IPv4Address: str() of one is the dotted text, int() the number, equality and order compare addresses, and it can be hashed.", "quantifier": "all addresses, constructed from text or read from the wire", "why_tests_cant": "It is about every address and every pair of address objects; the unit tests only look at attributes.", "anchors": ["src/opensearch_sdk_py/transport/transport_address.py:TransportAddress"]}
{"id": "C110", "title": "Changing an attribute of one object changes no other object", "statement": "Nodes, extension nodes, dependencies, REST requests and responses, settings, messages: adding to a dict, list or set attribute of one object (node.roles.add(role), response.headers[k] = v, request.parent_task_id.node_id = n), or reading one object from a stream, changes no attribute of any other object.", "quantifier": "all programs that construct any number of these objects, change their attributes in place and read them from streams, with all contents", "why_tests_cant": "It is about every sequence of operations on any number of objects; a test sees two objects after one change.", "anchors": ["src/opensearch_sdk_py/transport/discovery_node.py:DiscoveryNode.__init__", "src/opensearch_sdk_py/transport/discovery_extension_node.py:DiscoveryExtensionNode.__init__", "src/opensearch_sdk_py/settings/settings.py:Settings", "src/opensearch_sdk_py/rest/extension_rest_request.py:ExtensionRestRequest.__init__", "src/opensearch_sdk_py/transport/transport_request.py:TransportRequest.__init__"]}
{"id": "C111", "title": "The texts of nodes, task ids, replies and raw data tell them apart", "statement": "str() of a task id determines it. As long as the names in them have no commas, str() of a node or extension node determines its id, version text, name, host, host address, attributes, roles (and minimum version and number of dependencies); what is logged about an initialisation determines both nodes so; and str() of each reply determines what it carries: extension name and interfaces, acknowledgement, versions, node and cluster, REST status, content type, headers and content size. What is logged about a sent reply determines its id, size, flags, thread context, message text and number of bytes; the raw records determine the bytes.", "quantifier": "every two objects of these classes, whatever their attributes", "why_tests_cant": "It compares every two of infinitely many objects.", "anchors": ["src/opensearch_sdk_py/transport/task_id.py:TaskId.__str__", "src/opensearch_sdk_py/transport/discovery_node.py:DiscoveryNode.__str__", "src/opensearch_sdk_py/transport/discovery_extension_node.py:DiscoveryExtensionNode.__str__", "src/opensearch_sdk_py/rest/rest_execute_on_extension_response.py:RestExecuteOnExtensionResponse.__str__", "src/opensearch_sdk_py/actions/request_handler.py:RequestHandler.send", "src/opensearch_sdk_py/server/async_host.py:AsyncHost.on_connection"]}
{"id": "C112", "title": "Nothing is dropped without a warning, and every answer is in the log", "statement": "For every chunk of bytes read from a connection, in every state: if it is answered and the answer is sent, the log shows at INFO exactly three records - the bytes read, what they were understood to be, and what was sent, with its size - and no warning, and the last debugging record shows the bytes sent. Otherwise (an exception in reading or handling, an error response, a response nobody waits for, a refused registration, a failed send) there is exactly one warning, after everything else that is shown. For a request frame the second record is the text of the request.", "quantifier": "every chunk, state of the host, extension, iteration order and text of an exception", "why_tests_cant": "The chunk and the state are arbitrary, and every path through the handlers must leave the right records.", "anchors": ["src/opensearch_sdk_py/server/async_host.py:AsyncHost.on_connection", "src/opensearch_sdk_py/server/async_extension_host.py:AsyncExtensionHost.on_input", "src/opensearch_sdk_py/actions/request_handler.py:RequestHandler.send", "src/opensearch_sdk_py/actions/response_handler.py:ResponseHandler.send"]}
{"id": "C113", "title": "The warning that a response id is not registered is true", "statement": "The log says that the id of a response is not registered exactly when no request of the extension with that id was waiting for its response.", "quantifier": "every response and state of the host", "why_tests_cant": "The response and the state are arbitrary; the code decides by the handler's result, not by the registration.", "anchors": ["src/opensearch_sdk_py/server/async_extension_host.py:AsyncExtensionHost.on_input", "src/opensearch_sdk_py/actions/response_handlers.py:ResponseHandlers.handle", "src/opensearch_sdk_py/actions/internal/register_rest_actions_response_handler.py:RegisterRestActionsResponseHandler.handle"]}
{"id": "C114", "title": "A request or response is written as it is now", "statement": "However an outbound request or response came to have its thread context, features, action, id and body - constructed, changed through its attributes, or read from a stream - what it writes is one frame of the declared length from which the peer reads exactly these.", "quantifier": "every request and response, every sequence of changes of any length to any of its attributes, every frame that is read and written again", "why_tests_cant": "The histories are arbitrary; a test writes what it has just constructed.", "anchors": ["src/opensearch_sdk_py/transport/outbound_message.py:OutboundMessage.read_from,write_to,variable_bytes,message_bytes", "src/opensearch_sdk_py/transport/outbound_message_request.py:OutboundMessageRequest", "src/opensearch_sdk_py/transport/network_message.py:NetworkMessage", "src/opensearch_sdk_py/transport/outbound_message_response.py:OutboundMessageResponse"]}
{"id": "C115", "title": "A rejection says what was wrong", "statement": "The message of the exception that rejects the value of a setting, a time, a size or a route states a demand which the rejected value does not meet and every accepted value does, and there is a message exactly when there is a rejection.", "quantifier": "every bound, key and value of every kind of setting; every regular expression; every text given as a time or size; every registry and every list of routes", "why_tests_cant": "Bounds, keys and values are unbounded; a test sees the message of one rejection.", "anchors": ["src/opensearch_sdk_py/settings/integer_setting.py:IntegerSetting.Parser.bounds_check", "src/opensearch_sdk_py/settings/time_value_setting.py:TimeValueSetting.Parser.bounds_check", "src/opensearch_sdk_py/settings/byte_size_value_setting.py:ByteSizeValueSetting.Parser.bounds_check", "src/opensearch_sdk_py/settings/regex_validator.py:RegexValidator.validate", "src/opensearch_sdk_py/transport/byte_size_value.py:ByteSizeValue.parse", "src/opensearch_sdk_py/rest/extension_rest_handlers.py:ExtensionRestHandlers.register"]}
{"id": "C116", "title": "Reading into an object that was used before", "statement": "After obj.read_from(stream) succeeds, every attribute that the class puts on the wire has the value that the bytes say, whatever the object held before; attributes that are not on the wire are untouched. If read_from raises, the object is as it was.", "quantifier": "every class with a read_from, every earlier content of the object, every byte stream", "why_tests_cant": "Tests read into newly made objects; what a stale attribute does depends on every earlier use and on every byte stream, including those that raise half way.", "anchors": ["src/opensearch_sdk_py/rest/extension_rest_request.py:ExtensionRestRequest.read_from", "src/opensearch_sdk_py/transport/tcp_header.py:TcpHeader.read_from", "src/opensearch_sdk_py/transport/discovery_node.py:DiscoveryNode.read_from", "src/opensearch_sdk_py/transport/task_id.py:TaskId.read_from", "src/opensearch_sdk_py/transport/outbound_message.py:OutboundMessage.read_from", "src/opensearch_sdk_py/settings/integer_setting.py:IntegerSetting.Parser.read_from"]}
{"id": "C117", "title": "Where a host listens", "statement": "While a host runs, host.port is the port at which peers reach it at its address: the one asked for, or one that the system picked if none was. Two running hosts at one address never have the same port. If async_run cannot listen it raises and the host is as before. When the run is over peers are refused, and the host can be run again.", "quantifier": "every number of hosts, addresses and ports, every sequence of starts and ends of hosts and of other programs that listen, every port the system picks", "why_tests_cant": "Ranges over all histories of hosts and of other programs on the machine; the tests run each host once and never connect after the end.", "anchors": ["src/opensearch_sdk_py/server/host.py:Host.__init__", "src/opensearch_sdk_py/server/async_host.py:AsyncHost.async_run", "src/opensearch_sdk_py/server/async_host.py:AsyncHost.__listen"]}
{"id": "C118", "title": "What is left out of a constructor has a default that can be written", "statement": "An argument of a node, header or message constructor that has a default may be left out, whatever the other arguments are: the object can be written, and reading what was written gives what was given and, for what was left out, the default (for a node: no name, a fresh ephemeral id, the address's host name, its dotted form, no attributes, no roles, the current version; for an extension node both versions 0; for a header the marker ES, the next request id, status 0, size 17; an empty text counts as left out). (Violated by a node without id or address, a header or message without version, an initialisation request without both nodes, environment settings or a TCP handshake answer without content, and a task id with a node but no number.)", "quantifier": "every combination of arguments given and left out, and all values of those given", "why_tests_cant": "Ranges over every combination of given and missing arguments with all their values; the tests construct a few.", "anchors": ["src/opensearch_sdk_py/transport/discovery_node.py:DiscoveryNode.__init__", "src/opensearch_sdk_py/transport/discovery_extension_node.py:DiscoveryExtensionNode.__init__", "src/opensearch_sdk_py/transport/tcp_header.py:TcpHeader.__init__", "src/opensearch_sdk_py/transport/initialize_extension_request.py:InitializeExtensionRequest", "src/opensearch_sdk_py/transport/transport_service_handshake_response.py:TransportServiceHandshakeResponse", "src/opensearch_sdk_py/transport/transport_handshaker_handshake_response.py:TransportHandshakerHandshakeResponse", "src/opensearch_sdk_py/transport/environment_settings_response.py:EnvironmentSettingsResponse", "src/opensearch_sdk_py/transport/task_id.py:TaskId", "src/opensearch_sdk_py/transport/outbound_message_request.py:OutboundMessageRequest.__init__"]}
{"id": "C119", "title": "At DEBUG the log tells what every message carries, and every byte sent", "statement": "For every chunk that is understood as a handshake, REST request, initialisation or awaited answer, the log at DEBUG shows, in this order, the bytes with their number, the header, and the text of what the message carries: the version asked about, the task, the REST request, the nodes, the acknowledgement, the settings. For everything that is answered it ends with the record of what was sent, the bytes as they were written, and the bytes as they were sent with their number. (Violated by the answer that brings the node's settings: the record shows a class name and an object address.)", "quantifier": "every chunk of bytes, every host state, every extension and every outcome of the send", "why_tests_cant": "Quantifies over all inputs in all states; a test compares the records of single messages.", "anchors": ["src/opensearch_sdk_py/server/async_host.py:AsyncHost.on_connection", "src/opensearch_sdk_py/server/async_extension_host.py:AsyncExtensionHost.on_input", "src/opensearch_sdk_py/actions/request_handler.py:RequestHandler.send", "src/opensearch_sdk_py/actions/response_handler.py:ResponseHandler.send", "src/opensearch_sdk_py/actions/internal/environment_settings_response_handler.py:EnvironmentSettingsResponseHandler.handle"]}
{"id": "C120", "title": "Every text is either written so that it reads back, or refused", "statement": "For every Python str, also one that no encoding has (with half of a surrogate pair, as json.loads can make): write_string either writes what read_string returns as the same text, or, exactly if there is a surrogate in it, raises UnicodeEncodeError and writes nothing. Arrays and dicts of texts are written exactly if all their texts are. Text from the wire can always be written again. A REST handler's response with such a text anywhere in it (content type, header, consumed parameter) is not sent: the request stays unanswered, and of the host only the extension's own state and the next id change.", "quantifier": "every sequence of code points, every array and dict of them, every handler's response, every request and host state", "why_tests_cant": "Unit tests use ASCII and a few characters; the claim is about every sequence of code points.", "anchors": ["src/opensearch_sdk_py/transport/stream_output.py:StreamOutput.write_string", "src/opensearch_sdk_py/transport/stream_input.py:StreamInput.read_string", "src/opensearch_sdk_py/actions/internal/extension_rest_request_handler.py:ExtensionRestRequestHandler.handle"]}
{"id": "C121", "title": "Nothing a REST handler raises disturbs other peers", "statement": "Whatever a REST handler raises, and in whatever order chunks, connections and sends happen: the connections of other peers stay open, the accept loop runs on, and of the host only the extension's own state and the next id change. An Exception does not even close the connection of the request. (Violated by SystemExit and KeyboardInterrupt, so by a handler that calls sys.exit(): every connection is closed at once, answers being sent are cut off, no further peer is accepted. Any other exception that is no Exception, as asyncio.CancelledError, closes the connection of its request only.)", "quantifier": "every extension, every handler and everything it can raise, every schedule and number of connections, every state", "why_tests_cant": "A test raises one exception from one handler on one connection.", "anchors": ["src/opensearch_sdk_py/server/async_host.py:AsyncHost.on_connection", "src/opensearch_sdk_py/server/async_host.py:AsyncHost.async_run", "src/opensearch_sdk_py/actions/internal/extension_rest_request_handler.py:ExtensionRestRequestHandler.handle"]}
{"id": "C122", "title": "Several hosts in one process, and serve at any time", "statement": "A program may have any number of hosts and extensions and call host.serve(extension) when and as often as it likes. A host answers on behalf of the extension serve was last called with, in each state as if it were the only host of a process that serves only this extension: what other hosts and their peers do is to it only other activity of the process. No two hosts ever wait for the same response; a response that arrives at the wrong host is ignored there and still awaited where it belongs. serve makes a host a new one: what it waited for is forgotten for good. A host on which serve was never called sends nothing and changes nothing.", "quantifier": "every number of hosts and extensions, every sequence of serve calls, inputs at any host and other activity of the process", "why_tests_cant": "Tests have one host and call serve once.", "anchors": ["src/opensearch_sdk_py/server/async_extension_host.py:AsyncExtensionHost.serve", "src/opensearch_sdk_py/server/async_extension_host.py:AsyncExtensionHost.on_input", "src/opensearch_sdk_py/actions/response_handlers.py:ResponseHandlers", "src/opensearch_sdk_py/transport/tcp_header.py:TcpHeader.id_iter"]}
{"id": "C123", "title": "Routes registered while the host runs", "statement": "extension.extension_rest_handlers.register(handler) may be called at any time. At every moment the extension announces, and dispatches over, the routes accepted so far, in the order of registration. Registrations do not disturb anything else: every guarantee about histories of messages holds with registrations at any points in between, and an initialisation in progress is completed. A request that some handler would get goes to this handler also after further registrations, unless one of them has a route whose key is literally the method and path of the request.", "quantifier": "every sequence of registrations, messages and other activity, every handler and set of routes", "why_tests_cant": "Tests register all handlers before the first message.", "anchors": ["src/opensearch_sdk_py/rest/extension_rest_handlers.py:ExtensionRestHandlers.register", "src/opensearch_sdk_py/rest/extension_rest_handlers.py:ExtensionRestHandlers.handle", "src/opensearch_sdk_py/api/action_extension.py:ActionExtension", "src/opensearch_sdk_py/actions/internal/discovery_extensions_request_handler.py:DiscoveryExtensionsRequestHandler.handle"]}
{"id": "C124", "title": "A host inside a larger program, and many hosts in one event loop", "statement": "A program may await async_run in its own event loop, cancel it, call it again, cancel the task of a connection, and run any number of hosts in one loop. Each host does what it does alone: what has been sent on a connection, with what is being sent, is exactly the answers to the chunks read from this connection in order; the host's state is that of handling the chunks one after another; a connection stays open until its peer goes, the host is asked to stop or the program cancels its task, which closes just this connection for good, whatever happens at other hosts, and also if accepting fails.", "quantifier": "every number of hosts, extensions, connections and chunks, every schedule, every failure, cancellation and further call of async_run", "why_tests_cant": "Tests run one host at a time with asyncio.run or a mocked loop.", "anchors": ["src/opensearch_sdk_py/server/async_host.py:AsyncHost.async_run", "src/opensearch_sdk_py/server/async_host.py:AsyncHost.on_connection", "src/opensearch_sdk_py/server/async_extension_host.py:AsyncExtensionHost.on_input"]}
{"id": "C125", "title": "When async_run ends the host serves no peer any more", "statement": "Once async_run has returned or raised - the host was asked to stop, the task was cancelled, accepting failed - no connection of the host is open and nothing more is read from its peers.", "quantifier": "every state of the host and its connections, every way in which async_run ends, with host.run() and inside a larger program, everything that happens afterwards", "why_tests_cant": "Tests look at the accept loop or at one connection, never at a connection after the loop ended.", "anchors": ["src/opensearch_sdk_py/server/async_host.py:AsyncHost.run", "src/opensearch_sdk_py/server/async_host.py:AsyncHost.async_run", "src/opensearch_sdk_py/server/async_host.py:AsyncHost.on_connection"]}
{"id": "C126", "title": "REST handlers may use the SDK themselves", "statement": "While it handles a request a REST handler may read and change the environment settings, build messages (which draws request ids), register further handlers, and change its own state, and may then return or raise. It sees all of these as they are at that moment; what it changed stays changed; its response is the answer exactly as if it had used nothing; the settings it sees are those the answers received so far brought unless somebody else changed them; an initialisation in progress is completed all the same; ids that it draws are never mistaken for ids of the host's own requests; no other input runs a handler; and everything that holds of every history of a host still holds.", "quantifier": "every handler behaviour, every history of inputs, registrations and other activity, every request", "why_tests_cant": "Tests use handlers that return a constant.", "anchors": ["src/opensearch_sdk_py/actions/internal/extension_rest_request_handler.py:ExtensionRestRequestHandler.handle", "src/opensearch_sdk_py/rest/extension_rest_handlers.py:ExtensionRestHandlers.handle", "src/opensearch_sdk_py/server/async_extension_host.py:AsyncExtensionHost.on_input", "src/opensearch_sdk_py/settings/settings.py:Settings"]}
{"id": "C127", "title": "The log of a run is complete and cannot be forged", "statement": "At every moment of every run of the server: the debugging records of bytes read are, in order, exactly the chunks that were read from all connections; those of bytes sent are exactly the answers, and those of connections exactly the connections accepted: nothing a peer, a handler or an exception says can add, remove or imitate such a record. Every byte that any peer has got was logged before, also if sends fail half way. There are exactly as many warnings as chunks not answered and sends that failed; every failed send is reported with its reason; the log says that the host is terminating exactly when a connection has ended the accept loop for this, so never unless somebody asks the host to stop.", "quantifier": "every schedule of any number of connections, every chunk, extension, partial and failed send, every text of an exception and of a socket", "why_tests_cant": "Tests look at single records; the claim is about all interleavings and about all texts a peer can send.", "anchors": ["src/opensearch_sdk_py/server/async_host.py:AsyncHost.async_run", "src/opensearch_sdk_py/server/async_host.py:AsyncHost.on_connection", "src/opensearch_sdk_py/server/async_extension_host.py:AsyncExtensionHost.on_input", "src/opensearch_sdk_py/actions/request_handler.py:RequestHandler.send"]}
{"id": "C128", "title": "The log tells which peer it is about", "statement": "From the log of a run one can tell what was read from and sent to each connection. (Violated: no record of a chunk, of an answer or of a failure names the connection. Whenever two peers are connected, exchanging what happens at the two gives the same log, record by record. It is true if only one peer sends.)", "quantifier": "every run with any number of connections", "why_tests_cant": "A test has one connection.", "anchors": ["src/opensearch_sdk_py/server/async_host.py:AsyncHost.on_connection"]}
{"id": "C129", "title": "Whatever was read can be passed on", "statement": "If a reader of the SDK returns an object - from whatever bytes, also such as no version of the SDK would write or a stream cut off half-way - then the matching write method writes that object without an exception, and a peer that reads what was written gets an equal object and stops exactly where it ends. So an object taken from one peer can always be sent to another: numbers, texts, arrays, dicts, versions, time and size values, generic values, the messages of the handshakes, REST requests and responses, thread contexts (as sets), fixed headers, settings (also those kept after a read that raised), protobuf messages and the parameters of the setting parsers (an absent upper limit of a time setting stays absent).", "quantifier": "every byte string and every object read from it", "why_tests_cant": "Tests read what the SDK itself wrote; the claim is about everything any peer can send.", "anchors": ["src/opensearch_sdk_py/transport/stream_input.py:StreamInput", "src/opensearch_sdk_py/transport/stream_output.py:StreamOutput", "src/opensearch_sdk_py/settings/settings.py:Settings", "src/opensearch_sdk_py/rest/extension_rest_request.py:ExtensionRestRequest", "src/opensearch_sdk_py/transport/tcp_header.py:TcpHeader"]}
{"id": "C130", "title": "The sample scripts say where they listen, and serve there", "statement": "Started as a process, a sample script logs that it is listening on localhost:1234 only if it does: peers that connect there are then served by its extension (greetings of the hello sample, client calls of the CRUD sample), and its log shows every chunk that was read and a warning for every chunk not answered and every send that failed. (Violated in one point: the record \"Listening on localhost:1234.\" is written before anything listens; if the port is taken, it is there all the same, and it is the last record of a process that nobody reaches.)", "quantifier": "every set of ports taken by other programs, every resolution of localhost, every run with any number of peers, every moment", "why_tests_cant": "Tests start the script on a free port and talk to it once.", "anchors": ["samples/hello/hello.py", "samples/crud/crud.py", "src/opensearch_sdk_py/server/host.py:Host", "src/opensearch_sdk_py/server/async_host.py:AsyncHost.async_run"]}
{"id": "C131", "title": "Exactly which texts a setting of a number, a time or a size accepts", "statement": "Configured with a non-empty text, an integer or long setting accepts it exactly when it is a whole number within the bounds of the setting: decimal digits of any script, with single underscores between them or none, with one sign or none, white space around or none (the separators U+001C to U+001F do not count as such), and no more digits than the interpreter takes; the value is that number. A version setting accepts the same texts, without bounds. A time or size setting accepts a text exactly when, lower-cased, it starts with digits, white space or none, and the abbreviation of a unit that is not followed by a further letter, digit or underscore (of a size, the final b may be missing), and the amount is within the bounds. Every other text raises ValueError, and no text has two values.", "quantifier": "every text, every bounds, every interpreter configuration and Unicode database with the stated laws", "why_tests_cant": "Tests parse a handful of plain ASCII numbers; the texts and scripts are unbounded.", "anchors": ["src/opensearch_sdk_py/settings/integer_setting.py", "src/opensearch_sdk_py/settings/long_setting.py", "src/opensearch_sdk_py/settings/version_setting.py", "src/opensearch_sdk_py/settings/time_value_setting.py", "src/opensearch_sdk_py/settings/byte_size_value_setting.py", "src/opensearch_sdk_py/transport/time_value.py:TimeValue.parse", "src/opensearch_sdk_py/transport/byte_size_value.py:ByteSizeValue.parse"]}
{"id": "C132", "title": "What the node configured is what a typed setting gives", "statement": "When an extension has asked the node for settings and the answer that it awaits brings a non-empty text for a key, then, whatever else the answer brings, and until some later input brings settings that mention that key, every typed setting declared for the key, read through any Settings() of the process, gives what that text says: an integer, long or version setting the number written in it, a time or size setting the amount and unit written in it, a float or double setting the number that float() reads in it, a boolean setting whether it is 'true' in any case, a string setting the text itself; provided the value is within the bounds of the setting (the validator accepts it), and no value otherwise.", "quantifier": "every answer, text, key, declared setting, and every sequence of later inputs, well-formed or not, that does not bring settings for the key", "why_tests_cant": "Tests decode an answer, or read a setting from a hand-made dict; the path from the bytes of the node through any later history of messages to a typed value is in no test and has unboundedly many histories.", "anchors": ["src/opensearch_sdk_py/server/async_extension_host.py", "src/opensearch_sdk_py/actions/internal/environment_settings_response_handler.py", "src/opensearch_sdk_py/settings/settings.py", "src/opensearch_sdk_py/settings/setting.py", "src/opensearch_sdk_py/settings/integer_setting.py", "src/opensearch_sdk_py/settings/boolean_setting.py"]}
