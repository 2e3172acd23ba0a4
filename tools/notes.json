{
 "C06": "False of the code: every negative number is written as the zig-zag code of its predecessor (C06_violated, for all of them), and read with the same defect. The agreeing numbers are exactly the non-negative ones (C06_nonneg_partial).",
 "C13": "The round trip is proved at any nesting; the last clause is false: a value of any other type is silently dropped (C13_other_types_violated, for all such values), and in a list it is still counted, so the reader takes the next value on the stream for an element (C13_swallowed_violated). C13_write_within: with the interpreter's recursion limit, what is nested deeper raises RecursionError instead of being written.",
 "C14": "False of the code for non-ASCII strings (C14_violated); C14_characterisation says exactly for which dicts the prediction is right, C14_partial gives the usual sufficient condition.",
 "C15": "False of the code: truncated varints, fixed-width integers, strings, arrays, dicts and empty inputs decode to other values (C15_violated_*, for every value and cut). What holds: truncated floats and doubles raise (C15_partial), and a string cut inside a character raises; exactly which cuts of a string are noticed is C15_string_exact_partial.",
 "C16": "False of the code: announced sizes are believed (C16_violated, C16_violated_generic; at the level of the host C16_violated_host: a 30-byte frame makes a request of 2^31 features). Proved for strings, byte strings (C16_partial) and string/set dicts (C16_dict_partial).",
 "C22": "False of the code when a context header is mis-sized (C22_violated, from C14). C22_exact gives the difference for every message; C22_partial the exact frame for well-sized contexts.",
 "C26": "False of the code from 128.0.0.0 on, writing and reading (C26_violated_*, for all such addresses); proved below (C26_partial).",
 "C32": "False of the code: routes before the conflicting one stay registered (C32_violated, C32_what_remains). Proved: nothing is removed or replaced, handlers with at most one route leave the registry as it was (C32_partial), and a failed registration leaves the registry as it was exactly if the first route is the conflicting one (C32_exact).",
 "C40": "False of the code: the action is not escaped (C40_violated, for every action with unbalanced quotation marks; C40_steered: a peer can choose a second member of the object). Proved for actions without quotation marks, backslashes and control characters (C40_partial), and exactly which actions give JSON (C40_exact, C40_exact_any).",
 "C41": "False of the code, entirely: marker, size and version bytes never influence the host at all (C41_violated, for every input and state).",
 "C42": "False of the code: whatever follows the first frame of a read is dropped (C42_violated). Proved: the first frame is handled as if it had come alone (C42_partial).",
 "C43": "False of the code: a read that ends within a frame is misread (C43_violated), and every read of at most 14 bytes, whatever part of a frame it is, is answered on its own (C43_piece_violated). Proved for reads that each begin with a complete frame (C43_partial, C43_runs_partial).",
 "C47": "False of the code: the settings answer of an earlier initialisation makes the host send the response of the latest one (C47_violated). Proved: the latest one is answered properly (C47_partial).",
 "C51": "False of the code: a REST request without a matching route gets no answer (C51_violated). Proved for handshakes and unknown actions (C51_partial); C38 gives the routed REST requests.",
 "C52": "False of the code: all Settings() share one default dict (C52_violated); a failed read leaves entries behind. Proved for objects with an empty dict of their own (C52_partial).",
 "C53": "False of the code for stored values that are false in Python's sense (C53_violated); proved for all others with non-empty text, and for absent keys.",
 "C59": "Proved for integer, long, byte-size, time, double and regex parsers; false for float parsers whose bounds are not single-precision (C59_float_violated), proved for the others (C59_float_partial).",
 "C60": "False of the code: setting objects lose FILTERED (C60_violated). Proved for parsers constructed directly (C60_partial).",
 "C63": "False of the code: id 0 is replaced by a fresh id (C63_violated, for every answered request). Proved: apart from the id the answer is the same (C63_partial). C63_init_violated: also for initialise-extension requests with id 0.",
 "C66": "False of the code: the flag is looked at only after a chunk or an accept (C66_violated). Proved: the next connection or chunk ends the server (C66_partial, C65).",
 "C67": "Proved for Boolean, string and version settings (integers: C54, floats: C68) and for non-negative times and sizes; false for negative times and sizes (C67_*_violated).",
 "C69": "False of the code for long and byte-size settings (C69_violated), proved for the other classes (C69_partial).",
 "C75": "False of the code for a peer that invents a response to a request never sent (C75_violated); proved for peers that only answer what they were asked (C75_order_partial). C75_always_violated: for every extension and every reachable state, a response with the id one below the registration's makes the host report itself initialised at once.",
 "C89": "False of the code: one failing accept ends the loop and closes every connection (C89_violated, from every reachable state). Proved for histories in which accept never fails (C89_partial).",
 "C90": "False of the code: the reply to a request marked compressed is marked compressed but plain (C90_violated). Proved for all other marks and histories (C90_marks_partial).",
 "C93": "False of the code: two peers initialising at once (C93_violated): the initialise response for the second peer's request is sent to the first. Proved for every schedule: what a response sent on a connection can be (C93_partial). C93_exact_violated says exactly which request is answered: the last accepted initialisation, whichever peer asked.",
 "C94": "False of the code: every cut within the content runs the handler on part of the request (C94_violated, C94_long_violated). Proved: whole frames (C94_whole_partial), and that nothing else runs a handler (C94_runs_partial).",
 "C97": "False of the code: the second half of the text is a literal without the f prefix, so headers, media type, content length and token are never shown (C97_violated, for every request), and URI and path run into each other (C97_path_violated). Proved: what the text does tell (C97_shown_partial).",
 "C98": "False of the code: actions, URIs, paths and node names are logged as they are, and any line can be forged (C98_forged_violated). Proved: exactly which records take one line (C98_*_partial), and that an input in which those fields have no line break is logged one line to a record, whatever the host has been through (C98_log_partial).",
 "C100": "False of the code: each read is logged raw at level INFO, so every token is in the log in clear (C100_violated, for every request). Proved: no other record tells it (C100_texts_partial).",
 "C101": "False of the code for every class and property (C101_violated). What setting.properties holds instead: C101_tuple_partial.",
 "C102": "False of the code: the default headers=dict() is one object. C102_violated says exactly which headers a response without its own dict has, C102_end_to_end_violated shows the leak between two requests; C102_own_partial is the part that holds.",
 "C103": "The protobuf library is modelled from its wire format and the documented limits of its C decoder (upb): it is not in the repository.",
 "C104": "asyncio and the sockets are modelled by the events they can cause; that a pending event happens at all is up to them.",
 "C105": "Violated for every non-ASCII text (C105_reads_violated, C105_exact). The format of the node is that of OpenSearch's Java StreamOutput.writeString, which is not in the repository: Spec/NodeString.lean states it.",
 "C106": "Fairness of the operating system on the one connection is a hypothesis (Spec/Liveness.lean).",
 "C107": "C44 on the server of C106: two initialisations at the same time are C47, an early settings answer is C75.",
 "C108": "ipaddress.IPv4Address(text) is modelled from CPython's source (3.9.5 or later: leading zeros refused); 1500 texts were compared with it. Which of these addresses can be sent is C26 (C26_text).",
 "C109": "False of every transport address: the constructor and read_from never set the attribute the inherited methods use, so str, int, hash and < raise AttributeError, and equality is identity. The attribute `address` works (C109_address_partial).",
 "C110": "False of all seventeen attributes whose constructor default is a mutable object (C110_violated): objects constructed without the argument share it, even across classes. Proved: attributes given to the constructor or read since are the object's own (C110_given_partial); what the shared ones contain (C110_default); and everything is as expected if nobody changes a default in place (C110_unchanged_partial).",
 "C111": "Names with commas can make texts ambiguous, as for REST requests (C97); that is why the names must be free of commas. Versions are compared by their text (C99_version: equal below 100.0.0.0).",
 "C112": "The records of the SDK itself about one chunk; what the extension's handlers log in between is not counted, nor is the record that the host is terminating.",
 "C113": "False of the code: when the peer refuses the registration of the routes, the handler returns None, and on_input then logs 'response id N not registered' although it was (C113_refused_violated). C113_exact_partial: the warning is logged exactly when nothing waits for the id or what waits is a refused registration.",
 "C114": "False of the code in three ways, each proved for all requests: a thread context changed later makes the declared length wrong (C114_context_violated), features and action assigned later are not sent (C114_action_violated), and a request that was read is written without its body but with its length (C114_relay_violated). C114_length_partial says exactly by how much the length is wrong after any sequence of changes; C114_plain_partial: changes of body, id, flags and version are sent faithfully.",
 "C115": "False of the code in two places, each proved for all values: a validator that wants no match rejects every matching value with the message that it must match (C115_regex_violated), and a size with an unknown unit is rejected as an invalid time unit that was not written (C115_unit_violated). The _partial theorems cover all numeric, time and size bounds, matching validators and times; C115_route covers routes.",
 "C116": "False of the code in three places, each proved for all values: a REST request without a media type on the wire leaves the old one (C116_media_violated), a message keeps the body, and without a variable header also the features and action, that it had (C116_message_violated), and a read_from that raises leaves an object half new and half old (C116_failed_violated). Proved for the other 26 classes: the result does not depend on the old object and is what the bytes say (C116_partial, C116_said_partial); attributes not on the wire are untouched in all 27, also when the reading raises (C116_others); a REST request is read as a new one that has the old media type (C116_rest_partial); header and context of a message are those on the wire (C116_message_partial).",
 "C117": "False of the code after the end of a run, proved for every history: nothing closes the listening socket, so peers are neither served nor refused as long as the host object is referred to (C117_stopped_violated), and running the host again always raises OSError because of its own old socket (C117_again_violated). Proved: everything said about running hosts (C117_running, C117_apart, C117_met), exactly when a host starts and where it then listens (C117_starts, C117_started, C117_raised), and that dropping the last reference releases the port (C117_released_partial). The operating system is assumed to be Linux as to SO_REUSEADDR. A call of async_run that cannot listen has cleared `terminating` nevertheless: C125_again_violated.",
 "C118": "False of the code for the arguments in C118_violated (writing raises whatever else is given) and C118_header_violated (a header without version is written as over three million bytes). Proved: a node or extension node can be written exactly if it has an id and an address (C118_node_partial, C118_extension_node_partial), and then, like a header with a version and a transport handshake answer, everything else may be left out and reads back as stated (C118_node_values, C118_extension_node_defaults, C118_header, C118_header_defaults, C118_service_response). REST messages without status, method or HTTP version: C29_incomplete_raises; a TCP handshake request without version: C28_tcp_handshake_without_version.",
 "C119": "False of the code for the settings the node sends: EnvironmentSettingsResponse has no text, so the record shows an object address whatever the settings are (C119_settings_violated). Proved for every other message and for everything that is sent (C119_requests, C119_acknowledged, C119_sent). Records at INFO: C112; what the texts determine: C97, C99, C111.",
 "C120": "Closes the restriction of the other theorems to text without surrogates for the writers of strings and for REST responses; C120_answered says that for all other text the model of the rest applies.",
 "C121": "False of SystemExit and KeyboardInterrupt, proved in every state (C121_exit_violated). Proved for everything else a handler can raise (C121_exceptions with C49, C121_contained, C121_others_partial).",
 "C122": "C122_reachable lifts every theorem about the histories of one host to each host of a process. The id counter and the dict of all Settings() objects are process-wide, as in the code.",
 "C123": "C123_history lifts every theorem about histories with fixed routes; what registerAll accepts is in C31. A registration made by a REST handler while it runs counts as coming after its request.",
 "C124": "C124_each refines any number of hosts to each host alone, for which C124_sequential, C124_replies, C124_reachable and C124_stays_open hold. At a host of which serve was not called nothing happens in this model; its answers are in C122_unserved.",
 "C125": "False of the code when async_run is awaited by a program: nothing but on_connection closes connections. After a cancellation each connected peer is still answered once (C125_interrupt_violated), after a failure to accept without end (C125_failed_violated), and calling async_run again revives the connections even if it raises (C125_again_violated). Proved: true under host.run() (C125_run_partial), and at most one more connection and one more chunk on each once the host is asked to stop (C125_stops_partial).",
 "C126": "C126_plain ties this to the host of the other theorems; C126_history lifts every theorem over Evolves or Reachable. A handler here runs to its end before anything else happens (handle_request is not async).",
 "C127": "Records of the SDK's own logging calls; what an extension's handlers log themselves, and what asyncio or the interpreter print about exceptions leaving a task, is not part of it.",
 "C128": "Full claim false: C128_who_violated for every run after two peers have connected. C128_one_partial: true with one sending peer.",
 "C129": "Protobuf messages: from streams of less than 2^31 octets (protobuf's own limit). Headers: from streams of at least two octets. Settings (and EnvironmentSettingsResponse, which is one Settings): fewer than 2^35 entries. Consumed parameters and response headers are sets in the SDK and come back as the same sets. Whole frames that are read and written again are in C114.",
 "C130": "Full claim false in one point: C130_listening_violated, whenever the script cannot listen. The rest is proved: exactly when it runs (C130_started), that peers reach it then (C130_serves), its log (C130_log), its answers (C130_hello, C130_crud; delivery is C106). What the CRUD handler logs itself at INFO is not part of the log modelled.",
 "C131": "Both directions: accepted exactly when written that way. The grammar of the texts is Spec/Numbers.lean, separate from the parser modelled in Py/Text.lean (which has been compared with CPython).",
 "C132": "End to end: from the bytes of the node's answer, over any later history, to the value of the typed setting. What a text says is given by the grammar of Spec/Numbers.lean; for floats by the float() of the interpreter, which is a parameter of the model."
}