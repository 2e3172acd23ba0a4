{
 "claims": [
  {
   "property": "C01",
   "status": "proved",
   "theorems": [
    "Verif.C01_byte",
    "Verif.C01_int",
    "Verif.C01_long",
    "Verif.C01_overflow",
    "Verif.C01_read"
   ],
   "note": ""
  },
  {
   "property": "C02",
   "status": "proved",
   "theorems": [
    "Verif.C02_roundtrip",
    "Verif.C02_too_large",
    "Verif.C02_negative"
   ],
   "note": ""
  },
  {
   "property": "C03",
   "status": "proved",
   "theorems": [
    "Verif.C03_roundtrip"
   ],
   "note": ""
  },
  {
   "property": "C04",
   "status": "proved",
   "theorems": [
    "Verif.C04_varint",
    "Verif.C04_unique"
   ],
   "note": ""
  },
  {
   "property": "C05",
   "status": "proved",
   "theorems": [
    "Verif.C05_roundtrip",
    "Verif.C05_out_of_range"
   ],
   "note": ""
  },
  {
   "property": "C06",
   "status": "partial",
   "theorems": [
    "Verif.C06_nonneg_partial",
    "Verif.C06_violated",
    "Verif.C06_read_violated"
   ],
   "note": "False of the code: every negative number is written as the zig-zag code of its predecessor (C06_violated, for all of them), and read with the same defect. The agreeing numbers are exactly the non-negative ones (C06_nonneg_partial)."
  },
  {
   "property": "C07",
   "status": "proved",
   "theorems": [
    "Verif.C07_boolean"
   ],
   "note": ""
  },
  {
   "property": "C08",
   "status": "proved",
   "theorems": [
    "Verif.C08_roundtrip",
    "Verif.C08_accepts_only_utf8",
    "Verif.C08_malformed_rejected",
    "Verif.C08_too_long"
   ],
   "note": ""
  },
  {
   "property": "C09",
   "status": "proved",
   "theorems": [
    "Verif.C09_array",
    "Verif.C09_dict",
    "Verif.C09_array_dict",
    "Verif.C09_set_dict"
   ],
   "note": ""
  },
  {
   "property": "C10",
   "status": "proved",
   "theorems": [
    "Verif.C10_last_wins"
   ],
   "note": ""
  },
  {
   "property": "C11",
   "status": "proved",
   "theorems": [
    "Verif.C11_of",
    "Verif.C11_enums",
    "Verif.C11_unknown_is_value_error",
    "Verif.C11_wire_values",
    "Verif.C11_status_order"
   ],
   "note": ""
  },
  {
   "property": "C12",
   "status": "proved",
   "theorems": [
    "Verif.C12_values"
   ],
   "note": ""
  },
  {
   "property": "C13",
   "status": "partial",
   "theorems": [
    "Verif.C13_roundtrip",
    "Verif.C13_too_deep",
    "Verif.C13_other_types_violated",
    "Verif.C13_swallowed_violated",
    "Verif.C13_int_overflow",
    "Verif.C13_array_list",
    "Verif.C13_write_within"
   ],
   "note": "The round trip is proved at any nesting; the last clause is false: a value of any other type is silently dropped (C13_other_types_violated, for all such values), and in a list it is still counted, so the reader takes the next value on the stream for an element (C13_swallowed_violated). C13_write_within: with the interpreter's recursion limit, what is nested deeper raises RecursionError instead of being written."
  },
  {
   "property": "C14",
   "status": "partial",
   "theorems": [
    "Verif.C14_characterisation",
    "Verif.C14_partial",
    "Verif.C14_violated"
   ],
   "note": "False of the code for non-ASCII strings (C14_violated); C14_characterisation says exactly for which dicts the prediction is right, C14_partial gives the usual sufficient condition."
  },
  {
   "property": "C15",
   "status": "partial",
   "theorems": [
    "Verif.C15_violated_vint",
    "Verif.C15_violated_fixed",
    "Verif.C15_violated_string",
    "Verif.C15_partial",
    "Verif.C15_violated_fixed_exact",
    "Verif.C15_string_exact_partial",
    "Verif.C15_violated_array",
    "Verif.C15_violated_dict"
   ],
   "note": "False of the code: truncated varints, fixed-width integers, strings, arrays, dicts and empty inputs decode to other values (C15_violated_*, for every value and cut). What holds: truncated floats and doubles raise (C15_partial), and a string cut inside a character raises; exactly which cuts of a string are noticed is C15_string_exact_partial."
  },
  {
   "property": "C16",
   "status": "partial",
   "theorems": [
    "Verif.C16_dict_partial",
    "Verif.C16_violated_host",
    "Verif.C16_violated",
    "Verif.C16_violated_generic",
    "Verif.C16_partial"
   ],
   "note": "False of the code: announced sizes are believed (C16_violated, C16_violated_generic; at the level of the host C16_violated_host: a 30-byte frame makes a request of 2^31 features). Proved for strings, byte strings (C16_partial) and string/set dicts (C16_dict_partial)."
  },
  {
   "property": "C17",
   "status": "proved",
   "theorems": [
    "Verif.C17_display",
    "Verif.C17_string",
    "Verif.C17_identity",
    "Verif.C17_wire",
    "Verif.C17_rounding"
   ],
   "note": ""
  },
  {
   "property": "C18",
   "status": "proved",
   "theorems": [
    "Verif.C18_characterisation",
    "Verif.C18_release_numbers",
    "Verif.C18_beyond"
   ],
   "note": ""
  },
  {
   "property": "C19",
   "status": "proved",
   "theorems": [
    "Verif.C19_roundtrip",
    "Verif.C19_layout",
    "Verif.C19_misfit_raises",
    "Verif.C19_no_version_raises",
    "Verif.C19_read_then_write"
   ],
   "note": ""
  },
  {
   "property": "C20",
   "status": "proved",
   "theorems": [
    "Verif.C20_message",
    "Verif.C20_independent",
    "Verif.C20_statuses",
    "Verif.C20_initial"
   ],
   "note": ""
  },
  {
   "property": "C21",
   "status": "proved",
   "theorems": [
    "Verif.C21_invariant",
    "Verif.C21_parts"
   ],
   "note": ""
  },
  {
   "property": "C22",
   "status": "partial",
   "theorems": [
    "Verif.C22_exact",
    "Verif.C22_partial",
    "Verif.C22_violated"
   ],
   "note": "False of the code when a context header is mis-sized (C22_violated, from C14). C22_exact gives the difference for every message; C22_partial the exact frame for well-sized contexts."
  },
  {
   "property": "C23",
   "status": "proved",
   "theorems": [
    "Verif.C23_roundtrip"
   ],
   "note": ""
  },
  {
   "property": "C24",
   "status": "proved",
   "theorems": [
    "Verif.C24_roundtrip"
   ],
   "note": ""
  },
  {
   "property": "C25",
   "status": "proved",
   "theorems": [
    "Verif.C25_roundtrip",
    "Verif.C25_empty",
    "Verif.C25_missing_number_raises"
   ],
   "note": ""
  },
  {
   "property": "C26",
   "status": "partial",
   "theorems": [
    "Verif.C26_text",
    "Verif.C26_partial",
    "Verif.C26_violated_write",
    "Verif.C26_violated_read",
    "Verif.C26_length_byte",
    "Verif.C26_default_host"
   ],
   "note": "False of the code from 128.0.0.0 on, writing and reading (C26_violated_*, for all such addresses); proved below (C26_partial)."
  },
  {
   "property": "C27",
   "status": "proved",
   "theorems": [
    "Verif.C27_node",
    "Verif.C27_extension_node",
    "Verif.C27_read_wellformed",
    "Verif.C27_builtin_roles"
   ],
   "note": ""
  },
  {
   "property": "C28",
   "status": "proved",
   "theorems": [
    "Verif.C28_init_request",
    "Verif.C28_init_response",
    "Verif.C28_acknowledged",
    "Verif.C28_tcp_handshake_request",
    "Verif.C28_tcp_handshake_without_version",
    "Verif.C28_tcp_handshake_prefix",
    "Verif.C28_tcp_handshake_response",
    "Verif.C28_handshake_request",
    "Verif.C28_handshake_response",
    "Verif.C28_environment_settings"
   ],
   "note": ""
  },
  {
   "property": "C29",
   "status": "proved",
   "theorems": [
    "Verif.C29_request",
    "Verif.C29_response",
    "Verif.C29_execute_response",
    "Verif.C29_stale_media_type",
    "Verif.C29_incomplete_raises"
   ],
   "note": ""
  },
  {
   "property": "C30",
   "status": "proved",
   "theorems": [
    "Verif.C30_tracking",
    "Verif.C30_results",
    "Verif.C30_response",
    "Verif.C30_early_response",
    "Verif.C30_sorted",
    "Verif.C30_order",
    "Verif.C30_alone"
   ],
   "note": ""
  },
  {
   "property": "C31",
   "status": "proved",
   "theorems": [
    "Verif.C31_register",
    "Verif.C31_no_replacement",
    "Verif.C31_history"
   ],
   "note": ""
  },
  {
   "property": "C32",
   "status": "partial",
   "theorems": [
    "Verif.C32_partial",
    "Verif.C32_what_remains",
    "Verif.C32_exact",
    "Verif.C32_violated"
   ],
   "note": "False of the code: routes before the conflicting one stay registered (C32_violated, C32_what_remains). Proved: nothing is removed or replaced, handlers with at most one route leave the registry as it was (C32_partial), and a failed registration leaves the registry as it was exactly if the first route is the conflicting one (C32_exact)."
  },
  {
   "property": "C33",
   "status": "proved",
   "theorems": [
    "Verif.C33_exact",
    "Verif.C33_first_match",
    "Verif.C33_no_match",
    "Verif.C33_found_iff"
   ],
   "note": ""
  },
  {
   "property": "C34",
   "status": "proved",
   "theorems": [
    "Verif.C34_placeholders",
    "Verif.C34_literal",
    "Verif.C34_dispatched"
   ],
   "note": ""
  },
  {
   "property": "C35",
   "status": "proved",
   "theorems": [
    "Construction.C35_fresh",
    "Construction.C35_explicit"
   ],
   "note": ""
  },
  {
   "property": "C36",
   "status": "proved",
   "theorems": [
    "Verif.C36_reply",
    "Verif.C36_never_silent"
   ],
   "note": ""
  },
  {
   "property": "C37",
   "status": "proved",
   "theorems": [
    "Verif.C37_tcp_handshake"
   ],
   "note": ""
  },
  {
   "property": "C38",
   "status": "proved",
   "theorems": [
    "Verif.C38_rest"
   ],
   "note": ""
  },
  {
   "property": "C39",
   "status": "proved",
   "theorems": [
    "Verif.C39_not_found",
    "Verif.C39_state"
   ],
   "note": ""
  },
  {
   "property": "C40",
   "status": "partial",
   "theorems": [
    "Verif.C40_partial",
    "Verif.C40_violated",
    "Verif.C40_exact",
    "Verif.C40_exact_any",
    "Verif.C40_steered"
   ],
   "note": "False of the code: the action is not escaped (C40_violated, for every action with unbalanced quotation marks; C40_steered: a peer can choose a second member of the object). Proved for actions without quotation marks, backslashes and control characters (C40_partial), and exactly which actions give JSON (C40_exact, C40_exact_any)."
  },
  {
   "property": "C41",
   "status": "partial",
   "theorems": [
    "Verif.C41_violated"
   ],
   "note": "False of the code, entirely: marker, size and version bytes never influence the host at all (C41_violated, for every input and state)."
  },
  {
   "property": "C42",
   "status": "partial",
   "theorems": [
    "Verif.C42_violated",
    "Verif.C42_partial"
   ],
   "note": "False of the code: whatever follows the first frame of a read is dropped (C42_violated). Proved: the first frame is handled as if it had come alone (C42_partial)."
  },
  {
   "property": "C43",
   "status": "partial",
   "theorems": [
    "Verif.C43_piece_violated",
    "Verif.C43_violated",
    "Verif.C43_partial",
    "Verif.C43_runs_partial"
   ],
   "note": "False of the code: a read that ends within a frame is misread (C43_violated), and every read of at most 14 bytes, whatever part of a frame it is, is answered on its own (C43_piece_violated). Proved for reads that each begin with a complete frame (C43_partial, C43_runs_partial)."
  },
  {
   "property": "C44",
   "status": "proved",
   "theorems": [
    "Verif.C44_sequence",
    "Verif.C44_not_early"
   ],
   "note": ""
  },
  {
   "property": "C45",
   "status": "proved",
   "theorems": [
    "Verif.C45_at_most_once"
   ],
   "note": ""
  },
  {
   "property": "C46",
   "status": "proved",
   "theorems": [
    "Verif.C46_distinct",
    "Verif.C46_no_overwrite",
    "Verif.C46_wire"
   ],
   "note": ""
  },
  {
   "property": "C47",
   "status": "partial",
   "theorems": [
    "Verif.C47_violated",
    "Verif.C47_partial"
   ],
   "note": "False of the code: the settings answer of an earlier initialisation makes the host send the response of the latest one (C47_violated). Proved: the latest one is answered properly (C47_partial)."
  },
  {
   "property": "C48",
   "status": "proved",
   "theorems": [
    "Verif.C48_unsolicited",
    "Verif.C48_error",
    "Verif.C48_negative"
   ],
   "note": ""
  },
  {
   "property": "C49",
   "status": "proved",
   "theorems": [
    "Verif.C49_stays_open",
    "Verif.C49_serves_on",
    "Verif.C49_reachable",
    "Verif.C49_still_answers"
   ],
   "note": ""
  },
  {
   "property": "C50",
   "status": "proved",
   "theorems": [
    "Verif.C50_sequential",
    "Verif.C50_replies"
   ],
   "note": ""
  },
  {
   "property": "C51",
   "status": "partial",
   "theorems": [
    "Verif.C51_exact",
    "Verif.C51_violated",
    "Verif.C51_partial"
   ],
   "note": "False of the code: a REST request without a matching route gets no answer (C51_violated). Proved for handshakes and unknown actions (C51_partial); C38 gives the routed REST requests."
  },
  {
   "property": "C52",
   "status": "partial",
   "theorems": [
    "Verif.C52_violated",
    "Verif.C52_example_violated",
    "Verif.C52_failed_read_violated",
    "Verif.C52_partial"
   ],
   "note": "False of the code: all Settings() share one default dict (C52_violated); a failed read leaves entries behind. Proved for objects with an empty dict of their own (C52_partial)."
  },
  {
   "property": "C53",
   "status": "partial",
   "theorems": [
    "Verif.C53_absent",
    "Verif.C53_present_partial",
    "Verif.C53_text_partial",
    "Verif.C53_violated",
    "Verif.C53_empty_text_partial"
   ],
   "note": "False of the code for stored values that are false in Python's sense (C53_violated); proved for all others with non-empty text, and for absent keys."
  },
  {
   "property": "C54",
   "status": "proved",
   "theorems": [
    "Verif.C54_constructs",
    "Verif.C54_integer",
    "Verif.C54_long",
    "Verif.C54_default",
    "Verif.C54_stored"
   ],
   "note": ""
  },
  {
   "property": "C55",
   "status": "proved",
   "theorems": [
    "Verif.C55_constructs",
    "Verif.C55_time",
    "Verif.C55_size"
   ],
   "note": ""
  },
  {
   "property": "C56",
   "status": "proved",
   "theorems": [
    "Verif.C56_validated",
    "Verif.C56_default_rejected",
    "Verif.C56_regex"
   ],
   "note": ""
  },
  {
   "property": "C57",
   "status": "proved",
   "theorems": [
    "Verif.C57_time_text",
    "Verif.C57_bytes_text",
    "Verif.C57_has_text",
    "Verif.C57_time_roundtrip",
    "Verif.C57_bytes_roundtrip",
    "Verif.C57_time_parse",
    "Verif.C57_bytes_parse",
    "Verif.C57_time_accepts",
    "Verif.C57_bytes_accepts",
    "Verif.C57_negative"
   ],
   "note": ""
  },
  {
   "property": "C58",
   "status": "proved",
   "theorems": [
    "Verif.C58_nanos",
    "Verif.C58_bytes",
    "Verif.C58_monotone",
    "Verif.C58_monotone_bytes"
   ],
   "note": ""
  },
  {
   "property": "C59",
   "status": "partial",
   "theorems": [
    "Verif.C59_integer",
    "Verif.C59_long",
    "Verif.C59_size",
    "Verif.C59_time",
    "Verif.C59_double",
    "Verif.C59_float_partial",
    "Verif.C59_float_violated",
    "Verif.C59_float_accepts_violated",
    "Verif.C59_regex"
   ],
   "note": "Proved for integer, long, byte-size, time, double and regex parsers; false for float parsers whose bounds are not single-precision (C59_float_violated), proved for the others (C59_float_partial)."
  },
  {
   "property": "C60",
   "status": "partial",
   "theorems": [
    "Verif.C60_violated",
    "Verif.C60_partial"
   ],
   "note": "False of the code: setting objects lose FILTERED (C60_violated). Proved for parsers constructed directly (C60_partial)."
  },
  {
   "property": "C61",
   "status": "proved",
   "theorems": [
    "Verif.C61_register_rest_actions",
    "Verif.C61_register_rest_actions_any",
    "Verif.C61_extension_request",
    "Verif.C61_extension_request_any",
    "Verif.C61_request_type_injective"
   ],
   "note": ""
  },
  {
   "property": "C62",
   "status": "proved",
   "theorems": [
    "Verif.C62_wellformed",
    "Verif.C62_injective",
    "Verif.C62_alphabet"
   ],
   "note": ""
  },
  {
   "property": "C63",
   "status": "partial",
   "theorems": [
    "Verif.C63_init_violated",
    "Verif.C63_violated",
    "Verif.C63_partial"
   ],
   "note": "False of the code: id 0 is replaced by a fresh id (C63_violated, for every answered request). Proved: apart from the id the answer is the same (C63_partial). C63_init_violated: also for initialise-extension requests with id 0."
  },
  {
   "property": "C64",
   "status": "proved",
   "theorems": [
    "Verif.C64_transport_handshake"
   ],
   "note": ""
  },
  {
   "property": "C65",
   "status": "proved",
   "theorems": [
    "Verif.C65_stops",
    "Verif.C65_next_chunk_ends"
   ],
   "note": ""
  },
  {
   "property": "C66",
   "status": "partial",
   "theorems": [
    "Verif.C66_partial",
    "Verif.C66_violated"
   ],
   "note": "False of the code: the flag is looked at only after a chunk or an accept (C66_violated). Proved: the next connection or chunk ends the server (C66_partial, C65)."
  },
  {
   "property": "C67",
   "status": "partial",
   "theorems": [
    "Verif.C67_boolean",
    "Verif.C67_string",
    "Verif.C67_version",
    "Verif.C67_time_partial",
    "Verif.C67_size_partial",
    "Verif.C67_time_violated",
    "Verif.C67_size_violated"
   ],
   "note": "Proved for Boolean, string and version settings (integers: C54, floats: C68) and for non-negative times and sizes; false for negative times and sizes (C67_*_violated)."
  },
  {
   "property": "C68",
   "status": "proved",
   "theorems": [
    "Verif.C68_bounds",
    "Verif.C68_default",
    "Verif.C68_nan"
   ],
   "note": ""
  },
  {
   "property": "C69",
   "status": "partial",
   "theorems": [
    "Verif.C69_violated",
    "Verif.C69_partial"
   ],
   "note": "False of the code for long and byte-size settings (C69_violated), proved for the other classes (C69_partial)."
  },
  {
   "property": "C70",
   "status": "proved",
   "theorems": [
    "Verif.C70_readers",
    "Verif.C70_roundtrip",
    "Verif.C70_end_of_input"
   ],
   "note": ""
  },
  {
   "property": "C71",
   "status": "proved",
   "theorems": [
    "Verif.C71_construction",
    "Verif.C71_constructed"
   ],
   "note": ""
  },
  {
   "property": "C72",
   "status": "proved",
   "theorems": [
    "Verif.C72_own_routes",
    "Verif.C72_template"
   ],
   "note": ""
  },
  {
   "property": "C73",
   "status": "proved",
   "theorems": [
    "Verif.C73_constructed",
    "Verif.C73_hello",
    "Verif.C73_others"
   ],
   "note": ""
  },
  {
   "property": "C74",
   "status": "proved",
   "theorems": [
    "Verif.C74_constructed",
    "Verif.C74_crud",
    "Verif.C74_others"
   ],
   "note": ""
  },
  {
   "property": "C75",
   "status": "partial",
   "theorems": [
    "Verif.C75_always_violated",
    "Verif.C75_order_partial",
    "Verif.C75_violated"
   ],
   "note": "False of the code for a peer that invents a response to a request never sent (C75_violated); proved for peers that only answer what they were asked (C75_order_partial). C75_always_violated: for every extension and every reachable state, a response with the id one below the registration's makes the host report itself initialised at once."
  },
  {
   "property": "C76",
   "status": "proved",
   "theorems": [
    "Verif.C76_outputs"
   ],
   "note": ""
  },
  {
   "property": "C77",
   "status": "proved",
   "theorems": [
    "Verif.C77_bounded"
   ],
   "note": ""
  },
  {
   "property": "C78",
   "status": "proved",
   "theorems": [
    "Verif.C78_answers_only"
   ],
   "note": ""
  },
  {
   "property": "C79",
   "status": "proved",
   "theorems": [
    "Verif.C79_frames"
   ],
   "note": ""
  },
  {
   "property": "C80",
   "status": "proved",
   "theorems": [
    "Verif.C80_primitives",
    "Verif.C80_collections",
    "Verif.C80_messages",
    "Verif.C80_parsers",
    "Verif.C80_settings"
   ],
   "note": ""
  },
  {
   "property": "C81",
   "status": "proved",
   "theorems": [
    "Verif.C81_values",
    "Verif.C81_messages"
   ],
   "note": ""
  },
  {
   "property": "C82",
   "status": "proved",
   "theorems": [
    "Verif.C82_vint",
    "Verif.C82_vlong",
    "Verif.C82_truncated",
    "Verif.C82_range"
   ],
   "note": ""
  },
  {
   "property": "C83",
   "status": "proved",
   "theorems": [
    "Verif.C83_tags",
    "Verif.C83_unknown"
   ],
   "note": ""
  },
  {
   "property": "C84",
   "status": "proved",
   "theorems": [
    "Verif.C84_double",
    "Verif.C84_read_float",
    "Verif.C84_write_float",
    "Verif.C84_write_special"
   ],
   "note": ""
  },
  {
   "property": "C85",
   "status": "proved",
   "theorems": [
    "Verif.C85_step",
    "Verif.C85_answer",
    "Verif.C85_history",
    "Verif.C85_failed"
   ],
   "note": ""
  },
  {
   "property": "C86",
   "status": "proved",
   "theorems": [
    "Verif.C86_constructs",
    "Verif.C86_integers",
    "Verif.C86_floats",
    "Verif.C86_units"
   ],
   "note": ""
  },
  {
   "property": "C87",
   "status": "proved",
   "theorems": [
    "Verif.C87_glob",
    "Verif.C87_dispatch",
    "Verif.C87_dispatched"
   ],
   "note": ""
  },
  {
   "property": "C88",
   "status": "proved",
   "theorems": [
    "Verif.C88_boolean_text",
    "Verif.C88_boolean_value",
    "Verif.C88_boolean_false",
    "Verif.C88_version",
    "Verif.C88_string"
   ],
   "note": ""
  },
  {
   "property": "C89",
   "status": "partial",
   "theorems": [
    "Verif.C89_partial",
    "Verif.C89_violated"
   ],
   "note": "False of the code: one failing accept ends the loop and closes every connection (C89_violated, from every reachable state). Proved for histories in which accept never fails (C89_partial)."
  },
  {
   "property": "C90",
   "status": "partial",
   "theorems": [
    "Verif.C90_marks_partial",
    "Verif.C90_violated"
   ],
   "note": "False of the code: the reply to a request marked compressed is marked compressed but plain (C90_violated). Proved for all other marks and histories (C90_marks_partial)."
  },
  {
   "property": "C91",
   "status": "proved",
   "theorems": [
    "Verif.C91_local",
    "Verif.C91_other_traffic",
    "Verif.C91_stateless"
   ],
   "note": ""
  },
  {
   "property": "C92",
   "status": "proved",
   "theorems": [
    "Verif.C92_reply",
    "Verif.C92_builtin",
    "Verif.C92_history"
   ],
   "note": ""
  },
  {
   "property": "C93",
   "status": "partial",
   "theorems": [
    "Verif.C93_partial",
    "Verif.C93_violated",
    "Verif.C93_exact_violated"
   ],
   "note": "False of the code: two peers initialising at once (C93_violated): the initialise response for the second peer's request is sent to the first. Proved for every schedule: what a response sent on a connection can be (C93_partial). C93_exact_violated says exactly which request is answered: the last accepted initialisation, whichever peer asked."
  },
  {
   "property": "C94",
   "status": "partial",
   "theorems": [
    "Verif.C94_violated",
    "Verif.C94_long_violated",
    "Verif.C94_whole_partial",
    "Verif.C94_runs_partial"
   ],
   "note": "False of the code: every cut within the content runs the handler on part of the request (C94_violated, C94_long_violated). Proved: whole frames (C94_whole_partial), and that nothing else runs a handler (C94_runs_partial)."
  },
  {
   "property": "C95",
   "status": "proved",
   "theorems": [
    "Verif.C95_builtin",
    "Verif.C95_registered",
    "Verif.C95_silent",
    "Verif.C95_responses",
    "Verif.C95_host"
   ],
   "note": ""
  },
  {
   "property": "C96",
   "status": "proved",
   "theorems": [
    "Verif.C96_reads_rest_actions",
    "Verif.C96_refuses_rest_actions",
    "Verif.C96_reads_extension_request",
    "Verif.C96_refuses_extension_request",
    "Verif.C96_int32_unique",
    "Verif.C96_writes_rest_actions",
    "Verif.C96_writes_extension_request"
   ],
   "note": ""
  },
  {
   "property": "C97",
   "status": "partial",
   "theorems": [
    "Verif.C97_violated",
    "Verif.C97_path_violated",
    "Verif.C97_shown_partial"
   ],
   "note": "False of the code: the second half of the text is a literal without the f prefix, so headers, media type, content length and token are never shown (C97_violated, for every request), and URI and path run into each other (C97_path_violated). Proved: what the text does tell (C97_shown_partial)."
  },
  {
   "property": "C98",
   "status": "partial",
   "theorems": [
    "Verif.C98_received_partial",
    "Verif.C98_forged_violated",
    "Verif.C98_rest_partial",
    "Verif.C98_init_partial",
    "Verif.C98_sent_partial",
    "Verif.C98_reply_partial",
    "Verif.C98_log_partial",
    "Verif.C98_raw_partial"
   ],
   "note": "False of the code: actions, URIs, paths and node names are logged as they are, and any line can be forged (C98_forged_violated). Proved: exactly which records take one line (C98_*_partial), and that an input in which those fields have no line break is logged one line to a record, whatever the host has been through (C98_log_partial)."
  },
  {
   "property": "C99",
   "status": "proved",
   "theorems": [
    "Verif.C99_raw",
    "Verif.C99_header",
    "Verif.C99_records",
    "Verif.C99_version"
   ],
   "note": ""
  },
  {
   "property": "C100",
   "status": "partial",
   "theorems": [
    "Verif.C100_violated",
    "Verif.C100_texts_partial"
   ],
   "note": "False of the code: each read is logged raw at level INFO, so every token is in the log in clear (C100_violated, for every request). Proved: no other record tells it (C100_texts_partial)."
  },
  {
   "property": "C101",
   "status": "partial",
   "theorems": [
    "Verif.C101_violated",
    "Verif.C101_tuple_partial"
   ],
   "note": "False of the code for every class and property (C101_violated). What setting.properties holds instead: C101_tuple_partial."
  },
  {
   "property": "C102",
   "status": "partial",
   "theorems": [
    "Verif.C102_own_partial",
    "Verif.C102_violated",
    "Verif.C102_end_to_end_violated"
   ],
   "note": "False of the code: the default headers=dict() is one object. C102_violated says exactly which headers a response without its own dict has, C102_end_to_end_violated shows the leak between two requests; C102_own_partial is the part that holds."
  },
  {
   "property": "C103",
   "status": "proved",
   "theorems": [
    "Verif.C103_always_kept_well_formed",
    "Verif.C103_forwards_rest_actions",
    "Verif.C103_forwards_extension_request"
   ],
   "note": "The protobuf library is modelled from its wire format and the documented limits of its C decoder (upb): it is not in the repository."
  },
  {
   "property": "C104",
   "status": "proved",
   "theorems": [
    "Verif.C104_accepts",
    "Verif.C104_hang_up",
    "Verif.C104_closed_for_good",
    "Verif.C104_reads_wait",
    "Verif.C104_send_completes",
    "Verif.C104_never_stuck"
   ],
   "note": "asyncio and the sockets are modelled by the events they can cause; that a pending event happens at all is up to them."
  },
  {
   "property": "C105",
   "status": "partial",
   "theorems": [
    "Verif.C105_ascii_partial",
    "Verif.C105_exact",
    "Verif.C105_reads_violated"
   ],
   "note": "Violated for every non-ASCII text (C105_reads_violated, C105_exact). The format of the node is that of OpenSearch's Java StreamOutput.writeString, which is not in the repository: Spec/NodeString.lean states it."
  },
  {
   "property": "C106",
   "status": "proved",
   "theorems": [
    "Verif.C106_delivered",
    "Verif.C106_answered",
    "Verif.C106_handshake",
    "Verif.C106_rest"
   ],
   "note": "Fairness of the operating system on the one connection is a hypothesis (Spec/Liveness.lean)."
  },
  {
   "property": "C107",
   "status": "proved",
   "theorems": [
    "Verif.C107_conversation"
   ],
   "note": "C44 on the server of C106: two initialisations at the same time are C47, an early settings answer is C75."
  },
  {
   "property": "C108",
   "status": "proved",
   "theorems": [
    "Verif.C108_text",
    "Verif.C108_rejects",
    "Verif.C108_all",
    "Verif.C108_node"
   ],
   "note": "ipaddress.IPv4Address(text) is modelled from CPython's source (3.9.5 or later: leading zeros refused); 1500 texts were compared with it. Which of these addresses can be sent is C26 (C26_text)."
  },
  {
   "property": "C109",
   "status": "partial",
   "theorems": [
    "Verif.C109_violated",
    "Verif.C109_address_partial"
   ],
   "note": "False of every transport address: the constructor and read_from never set the attribute the inherited methods use, so str, int, hash and < raise AttributeError, and equality is identity. The attribute `address` works (C109_address_partial)."
  },
  {
   "property": "C110",
   "status": "partial",
   "theorems": [
    "Verif.C110_given_partial",
    "Verif.C110_default",
    "Verif.C110_violated",
    "Verif.C110_unchanged_partial",
    "Verif.C110_features",
    "Verif.C110_response_features"
   ],
   "note": "False of all seventeen attributes whose constructor default is a mutable object (C110_violated): objects constructed without the argument share it, even across classes. Proved: attributes given to the constructor or read since are the object's own (C110_given_partial); what the shared ones contain (C110_default); and everything is as expected if nobody changes a default in place (C110_unchanged_partial)."
  },
  {
   "property": "C111",
   "status": "proved",
   "theorems": [
    "Verif.C111_raw",
    "Verif.C111_task",
    "Verif.C111_node",
    "Verif.C111_extension",
    "Verif.C111_init",
    "Verif.C111_initialized",
    "Verif.C111_acknowledged",
    "Verif.C111_handshake",
    "Verif.C111_service",
    "Verif.C111_reply",
    "Verif.C111_sent",
    "Verif.C111_response",
    "Verif.C111_handshake_request"
   ],
   "note": "Names with commas can make texts ambiguous, as for REST requests (C97); that is why the names must be free of commas. Versions are compared by their text (C99_version: equal below 100.0.0.0)."
  },
  {
   "property": "C112",
   "status": "proved",
   "theorems": [
    "Verif.C112_answered",
    "Verif.C112_received",
    "Verif.C112_unanswered",
    "Verif.C112_lost",
    "Verif.C112_warnings",
    "Verif.C112_request"
   ],
   "note": "The records of the SDK itself about one chunk; what the extension's handlers log in between is not counted, nor is the record that the host is terminating."
  },
  {
   "property": "C113",
   "status": "partial",
   "theorems": [
    "Verif.C113_exact_partial",
    "Verif.C113_refused_violated"
   ],
   "note": "False of the code: when the peer refuses the registration of the routes, the handler returns None, and on_input then logs 'response id N not registered' although it was (C113_refused_violated). C113_exact_partial: the warning is logged exactly when nothing waits for the id or what waits is a refused registration."
  },
  {
   "property": "C114",
   "status": "partial",
   "theorems": [
    "Verif.C114_length_partial",
    "Verif.C114_context_violated",
    "Verif.C114_action_violated",
    "Verif.C114_plain_partial",
    "Verif.C114_relay_violated",
    "Verif.C114_response_length_partial",
    "Verif.C114_response_context_violated",
    "Verif.C114_response_features_violated",
    "Verif.C114_response_plain_partial",
    "Verif.C114_response_relay_violated"
   ],
   "note": "False of the code in three ways, each proved for all requests: a thread context changed later makes the declared length wrong (C114_context_violated), features and action assigned later are not sent (C114_action_violated), and a request that was read is written without its body but with its length (C114_relay_violated). C114_length_partial says exactly by how much the length is wrong after any sequence of changes; C114_plain_partial: changes of body, id, flags and version are sent faithfully."
  },
  {
   "property": "C115",
   "status": "partial",
   "theorems": [
    "Verif.C115_integer_partial",
    "Verif.C115_float_partial",
    "Verif.C115_time_partial",
    "Verif.C115_size_partial",
    "Verif.C115_regex_partial",
    "Verif.C115_regex_violated",
    "Verif.C115_notation_partial",
    "Verif.C115_unit_violated",
    "Verif.C115_route"
   ],
   "note": "False of the code in two places, each proved for all values: a validator that wants no match rejects every matching value with the message that it must match (C115_regex_violated), and a size with an unknown unit is rejected as an invalid time unit that was not written (C115_unit_violated). The _partial theorems cover all numeric, time and size bounds, matching validators and times; C115_route covers routes."
  },
  {
   "property": "C116",
   "status": "partial",
   "theorems": [
    "Verif.C116_partial",
    "Verif.C116_said_partial",
    "Verif.C116_others",
    "Verif.C116_rest_partial",
    "Verif.C116_media_violated",
    "Verif.C116_failed_violated",
    "Verif.C116_message_partial",
    "Verif.C116_message_violated",
    "Verif.C116_response_partial",
    "Verif.C116_response_violated"
   ],
   "note": "False of the code in three places, each proved for all values: a REST request without a media type on the wire leaves the old one (C116_media_violated), a message keeps the body, and without a variable header also the features and action, that it had (C116_message_violated), and a read_from that raises leaves an object half new and half old (C116_failed_violated). Proved for the other 26 classes: the result does not depend on the old object and is what the bytes say (C116_partial, C116_said_partial); attributes not on the wire are untouched in all 27, also when the reading raises (C116_others); a REST request is read as a new one that has the old media type (C116_rest_partial); header and context of a message are those on the wire (C116_message_partial)."
  },
  {
   "property": "C117",
   "status": "partial",
   "theorems": [
    "Verif.C117_met",
    "Verif.C117_running",
    "Verif.C117_apart",
    "Verif.C117_starts",
    "Verif.C117_started",
    "Verif.C117_raised",
    "Verif.C117_stopped_violated",
    "Verif.C117_again_violated",
    "Verif.C117_released_partial"
   ],
   "note": "False of the code after the end of a run, proved for every history: nothing closes the listening socket, so peers are neither served nor refused as long as the host object is referred to (C117_stopped_violated), and running the host again always raises OSError because of its own old socket (C117_again_violated). Proved: everything said about running hosts (C117_running, C117_apart, C117_met), exactly when a host starts and where it then listens (C117_starts, C117_started, C117_raised), and that dropping the last reference releases the port (C117_released_partial). The operating system is assumed to be Linux as to SO_REUSEADDR. A call of async_run that cannot listen has cleared `terminating` nevertheless: C125_again_violated."
  },
  {
   "property": "C118",
   "status": "partial",
   "theorems": [
    "Verif.C118_node_partial",
    "Verif.C118_node_values",
    "Verif.C118_extension_node_partial",
    "Verif.C118_extension_node_defaults",
    "Verif.C118_service_response",
    "Verif.C118_header",
    "Verif.C118_header_defaults",
    "Verif.C118_violated",
    "Verif.C118_header_violated"
   ],
   "note": "False of the code for the arguments in C118_violated (writing raises whatever else is given) and C118_header_violated (a header without version is written as over three million bytes). Proved: a node or extension node can be written exactly if it has an id and an address (C118_node_partial, C118_extension_node_partial), and then, like a header with a version and a transport handshake answer, everything else may be left out and reads back as stated (C118_node_values, C118_extension_node_defaults, C118_header, C118_header_defaults, C118_service_response). REST messages without status, method or HTTP version: C29_incomplete_raises; a TCP handshake request without version: C28_tcp_handshake_without_version."
  },
  {
   "property": "C119",
   "status": "partial",
   "theorems": [
    "Verif.C119_requests",
    "Verif.C119_acknowledged",
    "Verif.C119_sent",
    "Verif.C119_settings_violated"
   ],
   "note": "False of the code for the settings the node sends: EnvironmentSettingsResponse has no text, so the record shows an object address whatever the settings are (C119_settings_violated). Proved for every other message and for everything that is sent (C119_requests, C119_acknowledged, C119_sent). Records at INFO: C112; what the texts determine: C97, C99, C111."
  },
  {
   "property": "C120",
   "status": "proved",
   "theorems": [
    "Verif.C120_written",
    "Verif.C120_refused",
    "Verif.C120_read",
    "Verif.C120_array",
    "Verif.C120_dict",
    "Verif.C120_array_dict",
    "Verif.C120_unanswered",
    "Verif.C120_answered"
   ],
   "note": "Closes the restriction of the other theorems to text without surrogates for the writers of strings and for REST responses; C120_answered says that for all other text the model of the rest applies."
  },
  {
   "property": "C121",
   "status": "partial",
   "theorems": [
    "Verif.C121_exceptions",
    "Verif.C121_contained",
    "Verif.C121_others_partial",
    "Verif.C121_exit_violated"
   ],
   "note": "False of SystemExit and KeyboardInterrupt, proved in every state (C121_exit_violated). Proved for everything else a handler can raise (C121_exceptions with C49, C121_contained, C121_others_partial)."
  },
  {
   "property": "C122",
   "status": "proved",
   "theorems": [
    "Verif.C122_alone",
    "Verif.C122_input",
    "Verif.C122_serve",
    "Verif.C122_last",
    "Verif.C122_reachable",
    "Verif.C122_unserved",
    "Verif.C122_apart",
    "Verif.C122_misdirected",
    "Verif.C122_forgotten"
   ],
   "note": "C122_reachable lifts every theorem about the histories of one host to each host of a process. The id counter and the dict of all Settings() objects are process-wide, as in the code."
  },
  {
   "property": "C123",
   "status": "proved",
   "theorems": [
    "Verif.C123_history",
    "Verif.C123_routes",
    "Verif.C123_stable",
    "Verif.C123_rest",
    "Verif.C123_sequence"
   ],
   "note": "C123_history lifts every theorem about histories with fixed routes; what registerAll accepts is in C31. A registration made by a REST handler while it runs counts as coming after its request."
  },
  {
   "property": "C124",
   "status": "proved",
   "theorems": [
    "Verif.C124_sequential",
    "Verif.C124_replies",
    "Verif.C124_reachable",
    "Verif.C124_stays_open",
    "Verif.C124_drop",
    "Verif.C124_each",
    "Verif.C124_doors",
    "Verif.C124_possible"
   ],
   "note": "C124_each refines any number of hosts to each host alone, for which C124_sequential, C124_replies, C124_reachable and C124_stays_open hold. At a host of which serve was not called nothing happens in this model; its answers are in C122_unserved."
  },
  {
   "property": "C125",
   "status": "partial",
   "theorems": [
    "Verif.C125_run_partial",
    "Verif.C125_stops_partial",
    "Verif.C125_interrupt_violated",
    "Verif.C125_failed_violated",
    "Verif.C125_again_violated"
   ],
   "note": "False of the code when async_run is awaited by a program: nothing but on_connection closes connections. After a cancellation each connected peer is still answered once (C125_interrupt_violated), after a failure to accept without end (C125_failed_violated), and calling async_run again revives the connections even if it raises (C125_again_violated). Proved: true under host.run() (C125_run_partial), and at most one more connection and one more chunk on each once the host is asked to stop (C125_stops_partial)."
  },
  {
   "property": "C126",
   "status": "proved",
   "theorems": [
    "Verif.C126_plain",
    "Verif.C126_history",
    "Verif.C126_rest",
    "Verif.C126_raises",
    "Verif.C126_only_rest",
    "Verif.C126_ids",
    "Verif.C126_settings_step",
    "Verif.C126_settings",
    "Verif.C126_sequence"
   ],
   "note": "C126_plain ties this to the host of the other theorems; C126_history lifts every theorem over Evolves or Reachable. A handler here runs to its end before anything else happens (handle_request is not async)."
  },
  {
   "property": "C127",
   "status": "proved",
   "theorems": [
    "Verif.C127_read",
    "Verif.C127_sent",
    "Verif.C127_accepted",
    "Verif.C127_wire",
    "Verif.C127_warnings",
    "Verif.C127_lost",
    "Verif.C127_end",
    "Verif.C127_running"
   ],
   "note": "Records of the SDK's own logging calls; what an extension's handlers log themselves, and what asyncio or the interpreter print about exceptions leaving a task, is not part of it."
  },
  {
   "property": "C128",
   "status": "partial",
   "theorems": [
    "Verif.C128_who_violated",
    "Verif.C128_one_partial"
   ],
   "note": "Full claim false: C128_who_violated for every run after two peers have connected. C128_one_partial: true with one sending peer."
  },
  {
   "property": "C129",
   "status": "proved",
   "theorems": [
    "Verif.C129_values",
    "Verif.C129_generic",
    "Verif.C129_messages",
    "Verif.C129_rest",
    "Verif.C129_context",
    "Verif.C129_header",
    "Verif.C129_settings",
    "Verif.C129_protobuf",
    "Verif.C129_parsers",
    "Verif.C129_process"
   ],
   "note": "Protobuf messages: from streams of less than 2^31 octets (protobuf's own limit). Headers: from streams of at least two octets. Settings (and EnvironmentSettingsResponse, which is one Settings): fewer than 2^35 entries. Consumed parameters and response headers are sets in the SDK and come back as the same sets. Whole frames that are read and written again are in C114."
  },
  {
   "property": "C130",
   "status": "partial",
   "theorems": [
    "Verif.C130_started",
    "Verif.C130_serves",
    "Verif.C130_listening_violated",
    "Verif.C130_log",
    "Verif.C130_hello",
    "Verif.C130_crud",
    "Verif.C130_version"
   ],
   "note": "Full claim false in one point: C130_listening_violated, whenever the script cannot listen. The rest is proved: exactly when it runs (C130_started), that peers reach it then (C130_serves), its log (C130_log), its answers (C130_hello, C130_crud; delivery is C106). What the CRUD handler logs itself at INFO is not part of the log modelled."
  },
  {
   "property": "C131",
   "status": "proved",
   "theorems": [
    "Verif.C131_integer",
    "Verif.C131_version",
    "Verif.C131_unique",
    "Verif.C131_time_text",
    "Verif.C131_size_text",
    "Verif.C131_time",
    "Verif.C131_size",
    "Verif.C131_refused"
   ],
   "note": "Both directions: accepted exactly when written that way. The grammar of the texts is Spec/Numbers.lean, separate from the parser modelled in Py/Text.lean (which has been compared with CPython)."
  },
  {
   "property": "C132",
   "status": "proved",
   "theorems": [
    "Verif.C132_configured"
   ],
   "note": "End to end: from the bytes of the node's answer, over any later history, to the value of the typed setting. What a text says is given by the grammar of Spec/Numbers.lean; for floats by the float() of the interpreter, which is a parameter of the model."
  }
 ]
}