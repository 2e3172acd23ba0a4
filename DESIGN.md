# Formal model of opensearch-sdk-py in Lean 4

Target: `/repo/src/opensearch_sdk_py` (read as text, never run). Proof assistant: Lean 4.33.0,
with single Mathlib modules. All paths below are relative to `/repo/src/opensearch_sdk_py`.

## 1. Trusted base

* Lean's kernel. Every theorem named in MANIFEST.json depends on no axioms other than the three
  standard ones `propext`, `Classical.choice`, `Quot.sound` (many on fewer). No own axioms, no
  compiler-backed evaluation, no unfinished proof. `decide +kernel` is used for closed finite
  facts; the kernel evaluates those itself.
* My reading of the code: the theorems are about the model in `lean/Verif/Model` and the runtime
  model in `lean/Verif/Py`; each definition cites the file and lines it models. The code was not
  executed.
* The Python runtime facts in section 3.

## 2. Shape of the model

* `Verif/Py/*` - the pieces of the Python runtime the code leans on: byte strings (`List UInt8`),
  exceptions (`Err`), `int.to_bytes/from_bytes`, UTF-8, insertion-ordered `dict`, `set` with an
  arbitrary iteration order, `re`/`fnmatch` fragments, `int()` of text, IEEE-754 doubles and
  singles (bit patterns, order, rounding to single precision).
* A **reader** is `Bytes -> Except Err (a x Bytes)`: the unread part of the `BytesIO` goes in, the
  value and the new unread part come out. Reads at end of input behave as in Python:
  `BytesIO.read(n)` returns fewer bytes, and `int.from_bytes(b"")` is 0.
* A **writer** is a pair (bytes emitted, optional exception): bytes written before an exception
  stay visible.
* `Verif/Model/*` - the code, function by function; mutable objects are records returned anew,
  process-wide state (id counter, shared default dict of `Settings`, pending response handlers,
  the extension's own state) is an explicit `Host` record that also survives exceptions. Where the identity of
  a mutable object matters (the shared default `headers` of responses, C102), `Model/Aliasing.lean` has the
  objects; the state of an extension may contain them.
* The server (`Model/Server.lean`) is a transition system: the events are accept, failed accept, chunk
  received, send completed or failed, end of file, stop request, other activity of the process; connections
  are coroutines that run between their `await` points, interleaved arbitrarily.
* `Verif/Spec/*` - small independent specifications used in theorem statements. Every definition a `Cnn_*`
  statement mentions, directly or through other definitions, is in `Spec`, `Model` or `Py`; none is in
  `Lemmas` or `Props`, and no file of `Spec` imports one of those.
* `Verif/Lemmas/*` - helper lemmas. `Verif/Props/*` - the property theorems, one file per area,
  each followed by non-vacuity examples. `Spec/Sample.lean` has the concrete extension, host,
  frames and histories that meet the hypotheses of the host-level theorems.
* `Verif/Conformance/*` - tests of the model, not claims: the project's own unit tests (`/repo/tests`), restated
  as examples the kernel evaluates on the model, with the inputs and the expected values of the tests. They
  include the four messages captured from a real OpenSearch node (`/repo/tests/transport/data`), which the model reads,
  rewrites byte for byte and answers as the tests expect. A wrong reading of the code that its own tests would
  catch is caught here.

## 3. Assumptions about the runtime (parameters of the model, not axioms)

* `str` values are sequences of Unicode scalar values (Lean `String`); lone surrogates, which
  `str.encode("utf-8")` rejects, are outside the main model; C120 treats text in general for the writers of
  strings and for REST responses.
* Sets of strings iterate in an arbitrary order (Python's hash order): writers that iterate over a
  set take an order oracle `HashOrder` that returns some permutation.
* Memory is unbounded (no `MemoryError`); the recursion depth of nested generic lists is bounded by
  a parameter (`sys.getrecursionlimit`); beyond it, RecursionError.
* Text: which characters are white space, digits, word characters and what `lower()` gives is a
  parameter (`Unicode`) with the few laws the proofs need as fields; they were checked over all
  code points with CPython 3.11 (an instance for ASCII exists, so the laws are satisfiable).
  `int(str)` refuses over 4300 digits; the proofs use the weaker bound of 640 digits, the least
  the interpreter can be configured to.
* `re.match` of user-supplied validators and `repr`/`str` of values of unmodelled types are
  parameters (`Interp`). Text of floats: a parameter with the law `float(repr(x)) = x`.
* Float division in `Version`: parameter `rnd` with the IEEE-754 relative error bound 2^-53.
* `Choice` bundles what one activation may observe non-deterministically: the UUID drawn, the order
  of the role set, the hash order.
* The extension (`Ext`): its name, interfaces, route registry and the handlers, which are arbitrary
  functions of the extension's own state and the request, may raise any `Exception`, and may return anything
  (handlers that use the settings, ids and routes of the process themselves are in C126; a handler that raises
  `SystemExit`, `KeyboardInterrupt` or `CancelledError`, which the code does not catch,
  is treated separately, C121). The
  samples instantiate it; the CRUD sample's OpenSearch client is a parameter.
* Protobuf is modelled concretely from its public wire format and the behaviour of the C decoder of the
  Python library (upb): fields in any order, last scalar wins, repeated fields append, embedded messages
  merge, tags and lengths of at most five bytes, unknown fields (also groups, to a depth of 100) kept and
  written after the known ones. The library itself is not in the repository: this is an assumption about it.
  Known fields are written in the order of their numbers (the library's order for small messages).
* The rules by which `bind` succeeds are those of Linux with SO_REUSEADDR: not on the port of a listening socket with an overlapping
  address (C117). A socket is closed when the last reference to it goes (CPython).
* asyncio is single-threaded: `on_input` runs without interleaving (it contains no `await`).
  Failures of `sock_accept`, `sock_recv` and `sock_sendall` are events of the model, and so is cancellation of the
  task of a connection by other code (C124); exceptions of `conn.setblocking` (as a failed accept) and of
  `conn.close` (after which the connection is closed all the same) are not modelled.
* Setting constructors get arguments of their annotated types.
* The models of readers, writers and the host take objects as values: they assume that nobody changes in place the
  mutable objects that are constructor defaults (a task id, a dict of settings). What happens if somebody does is
  modelled separately (C102, C110).
* *Writing* a nested generic value under the recursion limit is in `Model/Nested.lean` (C13_write_within, C129); elsewhere writing
  is not bounded (reading is, C13).
* The value-level readers assume that an object whose `read_from` raised half way is not used afterwards. What is in it
  then is modelled separately (C116; for `Settings` in C52).

`difftest/` compares parts of the runtime model with CPython's own built-ins (never with /repo):
14000 cases of float packing, unpacking and comparison, 15269 cases of `int()`, the value regex and
the TimeValue/ByteSizeValue grammars: no differences. (3000 `fnmatch`, 1500 `re.sub` and 700 `repr` cases were
compared the same way.) This is evidence for the runtime model only; no theorem rests on it.

## 4. Not modelled

The logging machinery itself (handlers, levels, encodings) and exception message texts other than those of C115, the abstract base classes without code, failures of
`socket`, `setsockopt`, `setblocking`, `listen` and `getsockname` (those of `bind` are, C117), timing, memory consumption, documentation, tests, and the commented-out Java text inside `stream_output.py`.
Everything else under `src/opensearch_sdk_py` and `samples` is modelled. The records that the SDK logs about one chunk are in `Model/Log.lean`, beside `onInput`; the logging calls evaluate
f-strings of raw bytes, of integers and of messages whose `__str__` only formats attributes that are set in the
constructor: none of them raises, so `onInput` itself need not mention them. The log of a whole run, with the records about the listening
socket, new connections and termination, is in `Model/RunLog.lean` (C127, C128).

## 5. Properties: what is modelled and how it is proved

A claim is "partial" in MANIFEST.json only where the English property is false of the code; then a
theorem with `violated` in its name proves that it is false - for a whole class of inputs wherever that is
true - and `_partial` theorems prove what is left.

| id | modelled code | proof |
|----|---------------|-------|
| C01 | `read_/write_` byte, int, long, short | big-endian two's complement as `Nat` base-256 digits; induction on width |
| C02-C04 | `write_v_int`, `v_int_size`, `read_v_int`, `read_v_long` | loop = base-128 digits (strong induction); unrolled readers = digit fold |
| C05, C06 | `write_z_long`, `read_z_long` | arithmetic on top of C03; C06: violated, exact set of agreeing integers (those >= 0) |
| C07 | booleans | all 256 bytes, plus EOF |
| C08 | strings | UTF-8 encode/decode from core Lean; converse: accepted bytes are the encoding |
| C09, C10 | string collections | induction over the lists; dict as unique-key association list |
| C11 | enums | finite tables, exhaustive; unknown ordinals over all integers |
| C12 | TimeValue, ByteSizeValue streams | from C05 and C11 |
| C13 | generic values | structural induction over nested values; unsupported types: violated (nothing is written) |
| C14 | dict size predictions | violated for non-ASCII; exact characterisation per string, proof for ASCII |
| C15 | truncation | violated; characterisation of what truncated varints/ints/strings decode to |
| C16 | size bound | violated for arrays (n elements from <= 5 bytes); proved for bytes/strings |
| C17, C18 | `Version`, `version_size` | rational arithmetic with rounding error bound; digit lengths |
| C19-C22 | `TcpHeader`, `OutboundMessage` | layout lemma; Nat bit operations; invariant over op sequences |
| C23-C29 | messages | composition of reader/writer round trips |
| C30 | `ExtensionRestRequest` accessors | induction over call sequences |
| C31, C32 | `ExtensionRestHandlers.register` | invariant over histories; C32 violated (witness), proved when no route of the batch conflicts / first route conflicts |
| C33, C34 | `handle`, `fnmatch` | list search; matching = substitution, induction over template |
| C35, C36 | id counter, reply construction | trace induction; id 0 violates C36 (fresh id used) |
| C37-C41 | `on_input` | symbolic evaluation of `on_input` on encoded frames |
| C42, C43 | `on_connection` reading | violated: witness theorems; proved for one frame per read |
| C44-C48 | init sequence, pending handlers | state machine invariants over arbitrary histories |
| C49, C50 | connection loop | interleaving semantics, invariant over schedules |
| C51 | every request answered | violated; `C51_exact`: answered iff served (small specification `Serves`), writable and fitting |
| C52-C60 | settings, parsers, `TimeValue`, `ByteSizeValue` | `SettingsHeap` with the shared default dict (C52); case analysis of `get` (C53); constructors as checks (C54-C56); digit lists and the unit tables (C57, C58); reader/writer composition (C59); C52, C53, C60 violated in general |
| C61 | protobuf payloads | protobuf wire format modelled from its public specification |
| C62 | ephemeral ids | base64 arithmetic |
| C63 | reply construction | violated for id 0 in every state; the rest of the reply proved equal |
| C64 | `TransportHandshakeRequestHandler` | symbolic evaluation of `on_input`; the node for every UUID and role order |
| C65, C66 | `AsyncHost.run`, `on_connection` | invariants of the server transition system; C66 violated for all quiet runs |
| C67-C69 | setting constructors and `get` | case analysis; text round trips from C57; float order on bit patterns |
| C70 | `read_optional_*` | flag-byte case analysis, RoundTrips combinators |
| C71, C72 | `ActionExtension.__init__`, `ExtensionRestHandlers` | induction over handlers and routes; dispatch inverted through `fnmatch` |
| C73, C74 | `samples/hello`, `samples/crud` | instances of C38/C51 with the handlers modelled |
| C75-C78 | whole host | induction over histories of exchanges; invariant tying pending entries to sent frames |
| C79 | everything the host sends | all send sites reduced to built messages, layout from C19, C21 |
| C80 | all decoders | `Reader.Local`, closed under the combinators readers are built from; one lemma per decoder |
| C81 | all encodings | from the round-trip theorems: two decodings of one byte sequence agree |
| C82 | the varint readers | the unrolled steps as a recursion over the number of steps left; every input is a run of continuation bytes and an end |
| C83 | generic values | case split on the tag, C01 for the integers, induction over the list parts |
| C84 | floats | values as whole multiples of 2^-1074, rounding as quotient and remainder; specification from the IEEE standard over the rationals |
| C85 | `EnvironmentSettingsResponseHandler`, `Settings.read_from`, `on_input` | entries as an inductive relation over the bytes; induction over the loop, then over the inputs |
| C86 | the setting constructors with default bounds, their parsers | from the exact constructor theorems (C54, C55, C68) at the default bounds; one number per text (C59) |
| C87 | `fnmatch.translate`, `{name}` substitution, `handle` | patterns as a list of pieces with a relation `Covers`; induction over the pieces, sets by induction over their members |
| C88 | `Boolean`/`Version`/`StringSetting`, `Setting.get`, `Settings.get`, `str` of values | case analysis over the stored value; decimal numerals contain only digits and a sign |
| C89 | `async_run`, `on_connection`: the event model with failures of accept | invariant over runs; a failed accept from every state of such a run |
| C90 | status byte of every frame sent, over histories of the host | invariant of histories (which request each output answers) + header bits; a marked handshake frame answered by a plain body |
| C91 | `on_input` as a function of (state, bytes); the extension state is what handlers may change. A handler is given only its state and the request here; handlers that use the settings, ids and routes themselves are in C126 | unwinding: two states with equal extension state give equal answers, non-REST inputs leave it alone |
| C92 | lengths of frames sent against frames received | every decoder pays for what it returns (cost of re-encoding vs. bytes consumed, with the slack of reads past the end), lifted to frames, requests and histories |
| C93 | the exchanges of a run of the server, per connection | induction over runs to histories, uniqueness of ids and C75 place the initialisation on the same connection; violated by a concrete run of two polite peers |
| C94 | a REST frame cut within its content, in every host state | locality of the frame decoder (C80) and a stepwise run of the request decoder on the cut body; the whole frame as in C38; all chunks by cases on the handlers |
| C95 | the handler tables with arbitrary handlers (`Model/Handlers.lean`) | induction over registrations and responses; refinement: the table set up by `serve` behaves as `handleRequest` (no built-in handler returns None) |
| C96 | the proto3 reader and writer of `Model/Protobuf.lean` (the protobuf runtime itself is not in the repository) against an independent wire-format relation (`Spec/Protobuf.lean`) | induction over the fields of the message |
| C97 | `__str__` of REST requests (`Model/Display.lean`, with `repr` in `Py/Repr.lean`) | unfolding (violations); texts cut at their punctuation, `repr` delimited (`Lemmas/Repr.lean`) |
| C98 | all `__str__` methods and the log records of `on_input` and `send` (`Model/Display.lean`) | `repr` never yields a line break; composition; explicit forged line |
| C99 | the same records | `repr` of texts, lists, dicts and sets is delimited (induction), decimal texts are injective |
| C100 | the records of raw reads and sends (`readRecord`, `rawRecord`) | `repr` shows printable ASCII as it is; the token is a contiguous part of the frame |
| C101 | the constructors of all setting classes | unfolding the constructors (inversion of the bounds checks) |
| C102 | `ExtensionRestResponse.__init__` with its header dicts as objects with identity (Model/Aliasing.lean) | invariant over all sequences of operations (which response holds which dict); two steps of the host for the leak |
| C103 | the same reader and writer with the unknown bytes kept in the objects | the parser is exactly the wire-format relation (induction over fields and nested groups); what is parsed is well-formed again; the length does not grow in any step |
| C104 | the server of C49 | one step lemma per phase of a connection, then induction over the run |
| C105 | `write_string`, `read_string` against the node's string format (`Spec/NodeString.lean`) | number of UTF-16 units against number of UTF-8 bytes, character by character; uniqueness of varints |
| C106 | infinite runs of the server of C49 with a fairness assumption for one connection (`Spec/Liveness.lean`) | well-founded induction over (bytes left, distance to the next piece taken) |
| C107 | C44 and C106 together: the conversation of an initialisation in an infinite run of the server | the host evolves along the run (`runs_evolves`), each answer is delivered by C106 |
| C108 | `TransportAddress.__init__` with `ipaddress.IPv4Address` of a text (`Model/Address.lean`) | splitting at dots undone by joining; octets are at most three digits, all of them checked by the kernel |
| C109 | the methods `TransportAddress` inherits, on the attribute `_ip` that is never assigned (`Model/Address.lean`) | unfolding (violation); `C108` for the attribute `address` |
| C110 | which object each attribute of a constructed object holds, with the defaults of the constructors as shared objects (`Model/Sharing.lean`) | simulation between the heap and a list of independent objects (`Spec/Sharing.lean`), by induction over the operations |
| C111 | the `__str__` methods of nodes, task ids and replies, the records of sent and raw data (`Model/Display.lean`) | texts are cut at commas; `repr` of containers is delimited |
| C112 | every logging call on the path of one chunk, with level and text (`Model/Log.lean`) | the log of each handler is tied to its result: a record of what is sent if and only if there is an answer |
| C113 | the same | False: a refused registration is reported as not registered; exactly when is proved |
| C114 | assignments to, and changes of, the attributes of a request or a response between constructor and `write_to` (`Model/Edit.lean`), `read_from` followed by `write_to` | False in three ways, each proved in general; the length after any sequence of changes is computed by an invariant over the sequence |
| C115 | the messages of the ValueErrors of settings, times and sizes and of the Exception of `register` (`Model/Reasons.lean`), beside the checks that raise them | the specification is a demand in words (`Spec/Reasons.lean`) that the value does not meet and every accepted value does; False for `is_matching=False` and for unknown size units |
| C116 | each `read_from` once more, as assignments to the `__dict__` of an object that an exception interrupts (`Model/Reuse.lean`, 27 classes), beside the value-level readers | each class refines its value-level reader for every earlier object; attributes not on the wire by an invariant of the assignments; False for the REST request's media type, for messages' bodies and for readings that raise |
| C117 | hosts, their sockets and those of other programs on one machine; `Host.__init__`, `__listen` and the start of `async_run` (`Model/Listen.lean`); the operating system's rules for `bind` as on Linux, names and permissions as parameters | invariants over all sequences of events; False after the end of a run: no code closes the socket |
| C118 | constructors with arguments left out and the `write_to` of what they make (`Model/Construct.lean`) | case analysis on the arguments given, round-trip lemmas; False of those arguments whose default `None` is never written |
| C119 | the debugging records of one chunk (`Model/Log.lean`) | case analysis on what the chunk is read as, over the definition of the log; False of the answer with the node's settings |
| C120 | `str` as any sequence of code points, its UTF-8 encoder and the writers of text over it (`Model/Points.lean`) | induction on the text; equality with the writers over `String` where there is no surrogate |
| C121 | the server's events if handlers may raise what is no `Exception` (`Model/Leave.lean`); what asyncio does with a task that ends so is assumed as documented | invariant over runs, case analysis on the exception; False of `SystemExit` and `KeyboardInterrupt` |
| C122 | a process with any number of hosts and extensions (`Model/Process.lean`), `serve` and inputs in any order, also inputs before `serve` | refinement: each host's part of a process history is a history of a single host; invariant: the ids hosts wait for are disjoint |
| C123 | a host together with the registry of its extension (`Model/Live.lean`), registrations and inputs in any order | refinement: for the host's own state an input with some routes is an input or other activity with any other routes; C44 and C38 at each moment |
| C124 | the server of `Model/Server.lean` without the cancellation that `asyncio.run` does, with cancellation of `async_run` and of single connections and further calls of `async_run` (`Model/Within.lean`); any number of them over one process | the invariants of C50 and C49 for the new steps; refinement of the fleet to each host, what happens elsewhere being other activity |
| C125 | the same | counterexample schedules for every state with an open connection; invariant for `host.run()`; a potential function for the number of further chunks |
| C126 | `on_input` with handlers that are given, and may change, the settings, the id counter, the routes and their own state (`Model/Using.lean`) | equality with `onInput` for every other input; for REST requests the host's own part is `Evolves.other`, so histories lift; then as C38, C44, C85 |
| C127 | every logging call over a run of the server of C49: the listening socket, connections, chunks, answers, failures, the end (`Model/RunLog.lean`); the texts of sockets and exceptions are parameters | the records of each event by kind; texts told apart by their first and last characters; invariant over runs for the bytes on the wire |
| C128 | the same | False: simulation of a run by the run with two connections exchanged; with one connection from C50 and C127 |
| C129 | every reader with its writer; writing of nested values under the recursion limit in `Model/Nested.lean` | postconditions of every reader (what it returns lies in the writer's domain), composed with the round trips |
| C130 | `samples/hello/hello.py` and `samples/crud/crud.py` as processes (`Model/Scripts.lean`): the level of the log, the two records, the host on port 1234, the run | False of the record "Listening on": by evaluation of the model for every reason `bind` raises; the rest from C117, C127, C73, C74 |
| C131 | `int(text)`, `TimeValue.parse`, `ByteSizeValue.parse` and the settings over them; the grammar is given separately in `Spec/Numbers.lean` | Soundness and completeness of the parsers for the grammar by induction over the text; then the bounds checks |
| C132 | The settings answer handler, `Settings`, `Setting.get` and all typed settings together | The history theorem C85 (with: inputs that do not mention the key leave it), composed with C131, C53, C86 and C88 for the parsers |
