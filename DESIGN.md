# Formal model of indigo-web/indigo — design

Lean 4.33.0, core library (single Mathlib modules only where a tactic is needed).
The code under `/repo` is read as text and translated by hand, function by function, into
total, computable Lean functions. Nothing is executed outside Lean.

## 1. Layout

| directory | contents |
|---|---|
| `lean/Verif/Base/` | byte strings, cutting at bytes, external library contracts (`Fold`, `Buf`) |
| `lean/Verif/Model/` | the model: one file per Go file or small group of Go files; every definition cites `/repo` file and lines |
| `lean/Verif/Spec/` | small specifications independent of the model (renderers, reference parsers, reference maps) |
| `lean/Verif/Proofs/` | helper lemmas |
| `lean/Verif/Props/` | property theorems only (`C01_…`), with the non-vacuity `example`s beside them |
| `lean/Verif/Conformance/` | the project's own Go tests, rewritten as `example`s about the model: tests of the translation, not proofs |

`Cnn_…` are the theorems named in MANIFEST.json. `Cnn_…_violation` are proofs of the *negation* of a
property (a concrete witness run through the model); `Cnn_…_partial` are the proved parts of a property that
fails in general or is only partly covered.

## 2. Modelling conventions

* `[]byte`/`string` = `List UInt8` (`Bytes`). Go strings are byte strings, so no Unicode layer is involved except
  in `http.Escape` (which ranges over runes) where UTF-8 decoding is modelled.
* `int` = `Int` with explicit 64-bit wrap-around where the code multiplies or converts attacker-controlled numbers.
  Lengths and counters bounded by memory are `Nat`.
* `panic` (index out of range) is an explicit outcome; nothing is totalised away by default values.
* Go labels with `goto` (the request parser) = a step function over an explicit label, iterated with
  fuel `length + 1`; exhaustion is a distinguished outcome which is proved unreachable.
* Objects mutated through pointers = state records returned by the operations.
* Aliasing is modelled where the code depends on it: in-place URI decoding (memory = byte list plus offsets), the
  chunk buffer of the serializer, the shared path buffer of `Static`, and the loop variable captured in `App.bind`.
* A network peer = the list of segments that successive `conn.Read` calls return, then an error.
* Goroutines = interleaving state machines, one transition per atomic step.
* Handlers = arbitrary interaction trees over the body operations (so that theorems quantify over all handlers).

## 3. Trusted base

* Lean's kernel; axioms: at most `propext`, `Classical.choice`, `Quot.sound`. AXIOMS.md lists for each theorem which of them it uses, as `#print axioms` says.
* The hand translation from Go to Lean (each definition cites its source lines). As evidence for it, `Verif/Conformance` runs on the model
  what the project's own test-suite runs on the code: parser, body, serializer, connection and router tests, the tests of the small packages,
  and the tests of `indigo_test.go` about one connection (bytes in, bytes out). The model gives what the tests expect in each case. Left out: tests of
  real sockets, timers and TLS, of the test helpers themselves, and of memory allocations.
* External libraries, absent from the sandbox, are modelled by contract:
  * `utils/strcomp.EqualFold(a,b)`: same length and bytewise equality of an unknown fold function `f` with
    `f` invariant under ASCII case and injective up to case on letters, digits, `-`, `.` and `:` (structure `Fold`; both
    `|0x20` and exact ASCII lowering satisfy it, shown by instances). Theorems quantify over every such `Fold`.
  * `utils/buffer.Buffer`: `Append` fails iff the total length would exceed the maximum; `Finish` returns the
    segment appended since the last `Finish`; `SegmentLength`; `Clear`.
  * `utils/uf.B2S/S2B`: identity.
  * `indigo-web/chunkedbody.Parser`: an arbitrary state machine parameter; only what is stated as a hypothesis is used.
  * `iter`, `jsoniter`, `net`, `crypto/tls`, `autocert`, `os`, `time`, `strconv`, `strings`, `sort`, `sync` of the Go
    standard library: re-specified where used (`strconv` decimal/hex formatting, `strings.TrimSpace` with the white space of Unicode,
    `sort.Slice` as an arbitrary sorted permutation, `sync.WaitGroup` as a counter).

## 4. What is modelled and what is not

Per source file: the modules below `lean/Verif/Model` which model it, and the functions without a definition of their own. The latter are
constructors, getters and one-line helpers, whose effect is part of the definitions which use them, unless said otherwise below.

| file | model | functions without a definition |
|---|---|---|
| config/config.go | Config, Parser |  |
| examples/combined/combined.go | Examples |  |
| examples/connhijack/connhijack.go | Examples |  |
| examples/dynroute/dynroute.go | Examples |  |
| examples/helloworld/helloworld.go | Examples |  |
| examples/helloworld_norouter/helloworld.go | Examples |  |
| examples/middlewares/middlewares.go | Again, Examples, Router |  |
| http/body.go | BodyMem |  |
| http/coding/codings.go | Coding | `newBuffer` |
| http/cookie/cookie.go | CookieBuilder, Response |  |
| http/cookie/jar.go | Cookie | `NewJar`, `NewJarPreAlloc` |
| http/encoding.go | Request | `Identity` |
| http/encryption/encryption.go | App, Middleware, Request |  |
| http/headers/valueaccessors.go | ValueAccessors |  |
| http/method/method.go | Method |  |
| http/method/method_string.go | Method |  |
| http/mime/common.go | Json |  |
| http/mime/exts.go | Files |  |
| http/path.go | Escape | `allocBuff` |
| http/proto/proto.go | Proto, Proofs/Proto |  |
| http/proto/upgrade.go | Proto, Props/Tokens |  |
| http/query/internal/parser.go | Arena, Parser, Query, UriDecode |  |
| http/query/query.go | Query | `New`, `Raw` |
| http/request.go | Cookie, Descriptors, Json, OneResponse, Request, ResponseMem, Serve, Shorthands | `WasHijacked` |
| http/response.go | Descriptors, Files, NilResponse, OneResponse, Response, ResponseMem, Shorthands |  |
| http/serve/http1.go | Serve |  |
| http/status/codes.go | Status |  |
| http/status/errors.go | Status | `NewError`, `Error` |
| https.go | App, Certs, Https |  |
| indi.go | App, Callbacks, Certs, Concurrent, Https | `Tune`, `OnStart`, `OnBind`, `OnStop`, `callIfNotNil` |
| internal/address/address.go | Address |  |
| internal/construct/constructors.go | Arena, Parser, Serve, Timed | `Request`, `Chunked` |
| internal/hexconv/hexconv.go | UriDecode |  |
| internal/httptest/dump.go | Conformance/EndToEnd | `space`, `question`, `ampersand`, `crlf`, `header`, `queryparam`, `colonsp` |
| internal/keyvalue/storage.go | Arena, Storage | `Iter`, `Unwrap`, `ensureNotNil` |
| internal/pathlib/pathlib.go | Static | `max` |
| internal/protocol/http1/body.go | Body, BodyMem | `newPlainBodyReader`, `newChunkedBodyReader`, `init` |
| internal/protocol/http1/parser.go | Arena, Parser | `trimPrefixSpaces` |
| internal/protocol/http1/serializer.go | Descriptors, OneResponse, Serializer | `sp`, `colonsp`, `crlf` |
| internal/protocol/http1/suit.go | BodyMem, Concurrent, NilResponse, OneResponse, Parser, Serve | `ServeOnce` |
| internal/response/fields.go | OneResponse, Response, ResponseMem |  |
| internal/stash/reader.go | Body, BodyMem | `New` |
| internal/strlenmap/map.go | Maps | `New` |
| internal/tcp/client.go | BodyMem, Client, Timed | `Pending`, `Conn`, `Remote`, `Close` |
| internal/tcp/server.go | App, Callbacks, Concurrent | `NewServer`, `WaitAll` |
| internal/types/attachment.go | Descriptors, Response | `Content`, `Size` |
| internal/uridecode/decoder.go | UriDecode |  |
| router/inbuilt/aliases.go | Router |  |
| router/inbuilt/catchers.go | Again, Router |  |
| router/inbuilt/defaulterrhandlers.go | Router, Props/Recover |  |
| router/inbuilt/groups.go | Again, Router |  |
| router/inbuilt/inbuilt.go | Again, Concurrent, NilResponse, Router, Virtual | `isServerWideOptions` |
| router/inbuilt/internal/radix/arrmap.go | Maps |  |
| router/inbuilt/internal/radix/template.go | Radix |  |
| router/inbuilt/internal/radix/tree.go | Radix, Router |  |
| router/inbuilt/internal/types/types.go | Router |  |
| router/inbuilt/middleware/customcontext.go | Middleware |  |
| router/inbuilt/middleware/httpsonly.go | Middleware |  |
| router/inbuilt/middleware/logging.go | NilResponse, Recover |  |
| router/inbuilt/middleware/recover.go | NilResponse, Recover |  |
| router/inbuilt/middleware/redirect.go | Middleware |  |
| router/inbuilt/middleware/serverheader.go | Middleware, NilResponse |  |
| router/inbuilt/middlewares.go | Router | `Use`, `applyMiddlewares` |
| router/inbuilt/mutator.go | Router |  |
| router/inbuilt/mutator/alias.go | Router |  |
| router/inbuilt/mutator/requestlogger.go | Recover |  |
| router/inbuilt/predicates.go | Resource, Router |  |
| router/inbuilt/registrar.go | Radix, Router | `newRegistrar`, `IsDynamic` |
| router/inbuilt/resource.go | Resource, Router |  |
| router/inbuilt/route.go | Router |  |
| router/inbuilt/static.go | Files, Router, Static |  |
| router/inbuilt/trace.go | Router |  |
| router/inbuilt/types.go | Router |  |
| router/inbuilt/uri/normalize.go | Address |  |
| router/router.go | Virtual |  |
| router/simple/simple.go | NilResponse, Virtual | `New`, `Initialize` |
| router/virtual/internal/domain/normalize.go | Address |  |
| router/virtual/virtual.go | Again, Virtual |  |

Not modelled:

* a constant: version.go
* aliases for names of internal/keyvalue: http/headers/headers.go
* helpers of the project's own benchmarks: internal/requestgen/genrequests.go
* helpers of the project's own tests: internal/httptest/parse.go, internal/tcp/dummy/client.go, internal/tcp/dummy/conn.go
* The libraries behind `https.go`: `autocert` and the authority, `crypto/tls`, `crypto/x509` are contracts from their RFCs (C106, C85); parallel changes of the directory are left out.
* Inside modelled files: contents of log lines other than those of C76; the texts of errors which never reach a client; time (`time.Now`,
  deadlines are parameters or outcomes of reads, except for C98); data races (Go's memory model), other than the interleavings of C46, C47, C79 and C85.
* The kernel's TCP: a connection is a script of read outcomes, and of write outcomes.
* Go's scheduler and garbage collector; `sync.Pool` is not used by the code.
* Integers are unbounded naturals where the code has `int` and values are lengths of memory; `Content-Length` and chunk sizes, which clients
  choose, have the width of the code (C07, C61).

## 5. Properties: what is modelled and how it is proved

* **C01 A well-formed request head is parsed the same way however TCP splits it** — Parser model (`Model/Parser`); invariant relating parser state and remaining stream, induction over header lines and segments.
* **C02 The parser accepts nothing but request heads** — Inversion of the parser's run on one segment, by induction on the input length.
* **C03 No input bytes can crash the request parser** — False: `GET / \n` and `K:\n` panic in the model. Negation with witnesses; partial: exact condition under which it cannot panic. Beyond that, the crashing streams are characterised exactly (`HeadCrash` in `Spec/Outcome`), by classifying all streams (see C69).
* **C04 Header count limit** — Invariant over all `Parse` calls (induction on the list of segments).
* **C05 Header and request line memory limits** — Invariant over all `Parse` calls. The total of what is stored: a second invariant relating the stored headers to the buffers. Too long request lines: induction on the segments, with the buffered part of the line as the state.
* **C06 Header key length limit is enforced** — False: `MaxKeyLength` is never read. Negation with a witness. `MaxKeyLength` is ignored for all inputs: parsers which differ only in it do the same (simulation); only the total of the names is bounded (partial).
* **C07 Content-Length is the decimal number written in the header** — False for duplicates and overflow (witnesses); partial: one header, value < 2^63, blanks around.
* **C08 Special headers are recognised by name only** — `encodeU64` modelled on `UInt64`, injectivity proved bitwise. False for keys containing CR (witness); partial on keys without CR; exact characterisation for all keys (CR counts as a hyphen).
* **C09 URI percent-decoding inverts percent-encoding** — Round trip over an arbitrary choice of escapes; induction.
* **C10 Malformed percent escapes are rejected** — False (`%zz` decodes to NUL): witness; partial: truncated escapes are errors; exactly what is decoded to what (`C10_exactly`).
* **C11 In-place decoding is safe** — Memory-level model of the decoder; refinement to the pure one by a loop invariant.
* **C12 Query parameters are delivered as encoded by the client** — False (the query is decoded before it is split): witness; partial: keys and values without `&`,`=`,`+`,`%` special bytes, with escapes of other bytes.
* **C13 A malformed query is always reported** — State machine of lazy parsing; false (witnesses); partial: the first access. Exactly: no access but the first one reports an error (`C13_only_first`), and what `Raw()` gives after accesses, from the memory the query is decoded in (`C13_raw_after`, `C13_raw_partial`).
* **C14 Header storage is a case-insensitive ordered multimap** — Refinement of the slice based storage to a spec multimap for all op histories. Storages made from Go maps: `C14_from_map`, for every order in which the map is walked.
* **C15 Method tokens** — Decision table lifted to all byte strings.
* **C16 Protocol tokens** — Decision function; false (`HTTP/1x1` accepted): witness; partial: exact characterisation of the accepted set.
* **C17 Transfer-Encoding tokens** — Induction over token lists; spec = split/trim/filter. `strings.TrimSpace` also removes Unicode white space, as in Model/Proto.lean (`C17_unicode_space_violation`).
* **C18 A sized body is delivered exactly once and completely** — Induction over segments for `Retrieve` on the modelled client.
* **C19 Body size limit** — Plain and chunked readers, chunk parser arbitrary; invariant over reads. Alloc-before-check of `Bytes` recorded.
* **C20 All body accessors see the same body** — Equality of totals by induction over segments.
* **C21 A request never observes another request's body** — False (stale `Bytes()`): witness; partial: when `Bytes` is the only accessor.
* **C22 Pipelined requests are answered in order, each with its own bytes** — Whole `serve` loop with handlers as interaction trees; induction over requests, using C01 and C18.
* **C23 Request state does not leak to the next request** — State record comparison; false for `Env` (witness), true for the rest.
* **C24 Bytes pushed back to the connection are not lost** — Refinement of client state to a stream position.
* **C25 Every response is a parseable HTTP/1.x message carrying what the handler set** — Independent response parser in `Spec`; round trip; `Props/EveryHead` for the heads of all responses, attachments and HEAD included.
* **C26 Header values cannot split the response** — False: witness through parser, `HTTPSOnly` and serializer; partial: CR/LF-free values (C25), all methods and attachments.
* **C27 Default headers are present in every response unless overridden by it** — False: witness (second response lacks header); exactly over histories: the default is there unless this or an earlier response has set the name; all methods and attachments.
* **C28 HEAD responses carry no body** — Direct.
* **C29 Chunked attachment stream decodes to the attachment** — Memory level model of the chunk buffer; spec decoder; induction on read results.
* **C30 Sized attachment stream** — Induction on read results; false for data returned with EOF: witness.
* **C31 Connection persistence follows the protocol** — Decision logic; false for attachments and upgrades (witnesses); exactly when the connection is kept (`C31_kept_iff_partial`).
* **C32 A malformed request is answered once and the connection closed** — Serve loop theorem on parser error. `C32_reply_readable`: what the client reads for it, by the independent reader of replies (Spec/Reply.lean); two violations: heads without a method are answered by the method of the last request, heads with an unsupported version by a response without a version.
* **C33 Cookies: parsing what a browser sends** — Round trip, induction.
* **C34 Set-Cookie rendering** — Spec attribute parser round trip; `MaxAge` attribute name false: witness. For all methods and ages, with the wrong name: `C34_every_cookie_partial`.
* **C35 Static routing is exact** — Registrar/routes map model, fold over registrations.
* **C36 Dynamic routing: templates match the paths they describe** — Radix tree model; refinement to a spec matcher; false in general (no backtracking, dropped one-byte segment): witnesses; partial under stated conditions, after any history of requests too (`C36_history_partial`).
* **C37 Distinct templates stay distinct** — False (`/a` equals `/`): witness; partial: injectivity for templates whose last static segment is longer than one byte.
* **C38 Middlewares run in registration order around the handler** — `compose` and group preparation; induction.
* **C39 The most specific catcher wins** — Sorted permutation argument.
* **C40 Static files never escape their root** — String model of `Path`/`isSafe`; interleaving model for the shared buffer: false (witness schedule); partial for one request at a time.
* **C41 Error handlers are chosen by status code** — Decision logic.
* **C42 TRACE echoes only the request itself** — False: witness; partial: first TRACE. What is echoed after any history is stated exactly, for routers without and with variables, and on the wire (`C42_wire`): the bodies of the replies to TRACE requests are given in terms of the bytes sent on the connection, by C71 with the whole history of the router (`HeardBefore`). Across connections: witness (`C42_wire_violation`).
* **C43 Path normalisation** — Induction; false for one-letter paths: witness.
* **C44 Virtual hosts** — Decision logic over registrations, and the exact share of the history each router has got; false for unnormalised request hosts: witness, and exact statements for every value as it was sent.
* **C45 HTTPS-only middleware lets no plaintext request through** — False twice (loop variable capture, Env reset): witnesses; partial for a single listener's first request.
* **C46 OnStop is called after the last client is gone** — Interleaving machine (`Model/App`): a step function over labels saying which goroutine goes on and what `Accept` returns; all schedules are all lists of labels. False (a connection accepted but not yet signed on when the counter is read): witness; partial: at most one connection per listener, and none if no accept loop holds one when the listeners are closed. Invariants by induction over runs.
* **C47 Stop and GracefulStop do not block and terminate the app once** — The same machine. Proved: one result with a cause, hooks once, bounded number of steps, progress; a failing listener is heard, by exactly one report, and none of their goroutines is left behind. False: later calls block forever, in every execution; listeners without deadlines accept after a graceful stop; a restarted application is stopped by what the first run left behind.
* **C48 Each listener's connections use that listener's handler** — `bind` with the variables its closures refer to (one loop variable, go 1.18). Proved: the last listener's handler serves all. False whenever handlers differ; partial: all handlers equal.
* **C49 Configuration defaults** — Record model of the configuration; case analysis; false for `CookiesPreAllocate`. The limits of the default configuration as numbers: which requests it lets through (with C22). `C49_documented_partial`: the documented numbers of all defaults (filling `CookiesPreAllocate` is the exception).
* **C50 Hijacked connections are left alone** — Serve loop with hijack in the interaction tree.
* **C51 Status lines** — Finite tables evaluated by the kernel, status lines of all responses by C25; false for custom status text and unsupported protocols: witnesses.
* **C52 Response builder** — State record model. `C52_shorthands` for the functions which begin a response and set one thing.
* **C53 Escaped paths are safe to log** — Model with UTF-8 decoding; false: witness; partial on ASCII input; the exact output for every text, in terms of its characters (`Spec/Utf8.lean`).
* **C54 Internal maps behave as maps** — Refinement to a finite map for all histories.
* **C55 Header value accessors** — Round trip.
* **C56 Upgrade token selection** — Induction over tokens. End to end (`C56_answers_partial`): an independent reader (`readAnswers`) finds at most one interim response before each final one; the invariant over the conversation is what the shared interim response says (`Told101`). False of what the 101 response says: witnesses.
* **C57 Aliases** — Direct; and, for any aliases, what the whole chain of them does, in which order.
* **C58 Address normalisation** — Case analysis on strings.
* **C59 Group prefixes** — Induction over group trees.
* **C60 A truncated body is not taken for a complete one** — False: `io.EOF` of the connection is confused with the end of the body. Negation with witnesses; partial for all other errors, by induction over the connection's script.
* **C61 No declared length can crash the server** — False: `Bytes` allocates Content-Length bytes before the limit is checked. Negation for every allocation limit below 2^62.
* **C62 A rejected body does not desynchronise the connection** — False for chunked bodies. Negation with a witness; partial for sized bodies.
* **C63 Responses are framed unambiguously** — False: witnesses (Transfer-Encoding with a body, a Content-Length of the application); partial: responses without framing headers of the application, by the round trip of C25. For all methods and attachments at once: `C63_every_response_partial`.
* **C64 Attachments are closed** — The serializer model returns whether the reader was closed. False for HEAD and for a failed write of the head; proved otherwise.
* **C65 HTTP/1.0 clients are not sent the chunked coding** — False: witness; partial: responses without attachments of unknown size. For HEAD too: `C65_every_response_partial`.
* **C66 A body limit of 0 refuses every request body** — False: `Fill` replaces 0 by the default (witness for every configuration); partial: all other limits are kept.
* **C67 Content codings** — Induction over the history of registrations; round trip from the round trip of the registered coding.
* **C68 Bundled middlewares do what they are documented to do** — Middlewares as functions on handlers in an arbitrary monad; equations.
* **C69 Every malformed head is answered with the status its fault calls for** — Faults as an inductive relation (`Spec/Fault`), independent of the parser; completeness by induction over the header section, soundness by running the parser model, segmentation by C01's invariant. Four kinds of streams (accepted, fault, crash, unfinished; `Spec/Outcome`), exhaustive by induction on the header section and exclusive because each determines the parser's result.
* **C70 A request whose head is unfinished has no effect** — From C01 (a proper prefix of a head never completes it) and the conversation theorem of C22. Also for all unfinished heads in the sense of `HeadOpen`.
* **C71 A client can read the responses to its requests** — Composition of C22 with the serializer's round trip: induction over the conversation, with an independent reader of HTTP/1.x messages (`Spec/Replies`). False for codes which forbid a body (the body is sent nevertheless): witness.
* **C72 Starting an application** — `bind` as a loop over an explicit binding state; induction. False: sockets bound before a failure stay open, for every such failure.
* **C73 AutoHTTPS serves HTTPS with suitable certificates** — Decision logic, with `strings.EqualFold` and `net.ParseIP` exactly as the standard library has them (for what is left of an address once everything behind the first colon is cut off). Spec/Address.lean: `HostPort`, `IsIPv4` (RFC 3986), `IsDomain`. False for addresses without a host, addresses of version 6 (`[::1]:443` is taken for a name) and for failing certificate generation; partial otherwise. Names which are not ASCII are left out: `localhoſt` is taken for the local host.
* **C74 Middlewares of the root are around everything** — For every program of registrations, every history of the router and every request, the action is `wrap (uses ops 0) h req'`. False for TRACE (the echo is made outside of the middlewares: witness); partial otherwise. With HTTPSOnly this gives C45 for whole routers.
* **C75 Panicking handlers behind Recover** — `Recover` as a handler of panics of actions; an invariant of the serving loop: no call of the router panics.
* **C76 One honest line per request in logs** — Handlers in a state monad with the lines of all logs; C53 for the characters.
* **C77 Method shorthands and resources** — Reduction to the registration of routes on groups (C38).
* **C78 The router does not crash** — Totality of the router on requests with a path (from C74's analysis), an invariant of the parser (a completed request has a path), lifted over the serving loop. False for aliases to the empty path (witness); partial otherwise.
* **C79 Connections do not interfere** — A crowd of connections shares the state of the router; a schedule is any list of indices, one iteration of a serving loop being atomic. Simulation: a connection in the crowd is the connection alone, up to the buffer for TRACE. False for TRACE (witness with two connections); partial otherwise. Handlers cannot share state of their own in the model.
* **C80 Building a response does not change the application's data** — A memory model of Go slices (arrays, offsets, capacities; `append` in place or to a new array, the new capacity being arbitrary); invariant over all sequences of calls: the body is either memory of its own or a slice without spare capacity. False for `JSON` after `String`/`Bytes` and `Write` after `Bytes` with spare capacity (for all such contents); partial otherwise. Refinement to the builder with values.
* **C81 Files are sent through a buffer of bounded size** — Induction over the reader's script for both ways of sending. False of the setting `FileBuffSize`, which has no effect on any connection; partial: bounded by `ResponseBuffSize`.
* **C82 JSON request bodies** — `Request.JSON` as an action with the decoder as a parameter; on requests as C22 delivers them. False for every spelling of the media type but one; partial otherwise.
* **C83 A site answers with its pages** — End to end: `siteAnswer` says from the list of pages alone what is to come back; composition of C71 (generalised to a class of requests) with C35, C39, C41 (the router, in any state), C22 (delivery) and the body theorems; the tameness and well-behavedness of such a router are proved, not assumed.
* **C84 What has been read is not overwritten** — A second model of client, stash and body, with memory: pieces are parts of the read buffer, `Bytes` appends to `fullBodyBuff` (slices of C80). Simulation with the model with values (`valueRun`, about which C18-C24 are) over all histories of a connection; only the contents given by `Read` may differ. False for `Read` mixed with other methods (bytes given twice, others lost) and for strings kept until the next request; partial otherwise.
* **C85 A server with a self-signed certificate starts again** — A transition system: generating and loading in steps (each system call, each line written), after each of which the process may crash or the call fail; induction over histories of starts. False after a crash between creating and completing the key file (no later start succeeds), and for two simultaneous first starts; partial for all other histories.
* **C86 Strings of a request keep their contents** — The parser's buffers with memory (slices of C80); invariant: finished strings lie below the current segment or in older arrays, apart from each other. Simulation with the buffer with values for all operations since it was cleared, after any earlier requests. False for clones: they share the memory, which the next request overwrites.
* **C87 Programs made with the built-in router, end to end** — C71 (replies read back by an independent client) instantiated with the built-in router after arbitrary registrations: the handler called is characterised by `Chosen` (Spec/Program.lean), an inductive relation over the declared routes, catchers and error handlers; for tables with variables via C36, otherwise via C35/C39. Hypotheses on handlers: they answer with self-delimiting responses, do not hijack, and leave method, Connection, Upgrade, remote address and query internals alone. TRACE requests, which the router answers itself: `C87_trace`. Malformed heads after any number of good requests: `C87_malformed`.
* **C88 A directory of static files, end to end** — `Static` as a handler (`Static.act`), `TryFile` with the file system and the table of MIME types (Model/Files.lean); an independent account of disks, types by extension and replies (`FileReply`, Spec/Files.lean). C87 instantiated with the program `[Static(prefix, root)]`, C40's normal form of the path buffer for the file which is opened, and `filepath.Ext` characterised by induction. Partial: false for empty files and clients of HTTP/1.0 (chunked coding), for paths like `/static-x` and for groups (both make other files be opened than named), and for methods (all of them get the file).
* **C89 Many clients at once, end to end** — Rely and guarantee: the only thing goroutines of connections share is the router, and calls of it change nothing but its buffer for TRACE (`C79_guarantee`, for every program, request and error). `interfered` serves a connection while that buffer is changed arbitrarily before each of its calls of the router; `C79_interference_partial` by simulation of the whole connection loop (Proofs/Concurrent.lean), then C87. Changes during a call of the router are not modelled; calls for methods other than TRACE do not look at the buffer at all. `C89_whatever`: the same for clients which send arbitrary bytes.
* **C90 The server and a strict reader agree about where requests end** — An executable reader after RFC 9112 (Spec/Wire.lean), which knows nothing about the server and refuses ambiguous framing. Whatever it accepts is a sequence of well-formed requests in the sense of C22 (`wire_sending`, by inversion of each step of the reader); C22 then says which calls of the router are made. False for streams the reader refuses: blanks before the colon, folded lines, overflowing or repeated lengths, repeated or unusual codings, both headers; partial for those it accepts.
* **C91 A request whose body cannot be read to its end is the last one of its connection** — `CutBody` (Spec/Cut.lean): a declared length above the limit, or a sized or chunked body of which the end is missing. Invariants `Stuck`/`Fading` (Proofs/Cut.lean) of the body and the client: no operation of the handler reaches the end of the body, hence the discarding between requests fails; then induction over the requests before (`serve_conversation`). After the bytes the connection only gives errors.
* **C92 One router may serve several virtual hosts** — `Initialize` with all its effects on the router itself (Model/Again.lean): the maps and slices of routes, catchers and error handlers are changed in place and shared with the routers returned before. False: with a route in a group the second call panics, for every such router (`C92_groups_violation`, by an invariant saying that the parent has got the routes of the group), middlewares are applied again at each call (`C92_no_groups` says exactly how often), and with a catcher in a group the router returned first may lose catchers (`C92_catchers_violation`). Partial for routers without groups and middlewares, up to the virtual hosts (`C92_hosts_partial`). The first call is the one all other theorems are about (`C92_first`).
* **C93 Whatever a client sends, a connection is a series of requests and one end** — Decomposition of every byte stream by strong induction on its length, using the classification of C69 for what comes first (and the reading is unique: `C93_one_reading`); then the conversation theorem of C22 with an ending for each kind (C03, C32, C70, C91). `Spec/Kinds` lists the kinds, and what is left open (`Outside`): names with CR or LF and request lines too long only with the method (both depend on the segmentation). After chunked bodies which are malformed or over the limit (`garbled`), only the beginning of the end is determined: the router is called with the request and its answer is written (`FirstOf`; what the rest is taken for depends on the handler and the decoder, C96). Content-Length counts modulo 2^64 and digits of escapes which are not hexadecimal as zero, as the code has it (C07, C10).
* **C94 Files which are opened for responses are closed** — Model/Descriptors.lean: the open files of the process next to the response and its serializer. The number of files left open after a response is counted exactly, by induction on the calls. False: directories (each request leaves a file open), files replaced or forgotten before the response is sent, and the cases of C64.
* **C95 Handlers may return nil** — Model/NilResponse.lean: handlers which return nil or a response, the bundled middlewares around them and `notNil`. Equality of the two programs, by induction on the middlewares. False behind `LogRequests` and `ServerHeader`, which use the response: the process panics.
* **C96 A request whose chunked body is malformed or longer than allowed is the last one of its connection** — `OverlongBody` (Spec/Overlong.lean). False: the error does not end the body; if the handler has seen it, the discarding between requests goes on reading the connection as if it were that body, and bytes from the body of another request are served as a request (`C96_smuggled_violation`, `C96_malformed_violation`). Partial: handlers which leave the body alone; invariant `Big` of the discarding loop. In general (`C96_unreadable_rest`): if what the handler leaves of the body cannot be read without an error, the request is the last one.
* **C97 Bytes which come together with the end of the connection count** — Read outcomes are pairs of data and error. False, for all servers and all such data: corollary of C22 (the script after the requests begins with the error), and of the readers of bodies. Partial: errors in reads of their own.
* **C98 The read timeout limits the silence of a client, and nothing else** — Model/Timed.lean: bytes with their times of arrival; reads with deadlines, after arbitrary delays. Invariant: no read begins before the arrival of the last byte read; hence the outcomes of the reads are data and then timeouts (`script_lively`, by induction on the delays), and C22 applies. (Writes have no deadline in the code; blocked writes are not modelled.)
* **C99 Programs behind virtual hosts, end to end** — Spec/Hosts.lean says who answers a request, from the registrations and the head as it was sent. C71 for the virtual router over the inbuilt ones: its hypotheses follow from C44 and from those of C87 for each program. `Host` values are compared as they were sent (see C44). `C99_any_client_partial` (Spec/EveryHost.lean) is C101 for them: any programs, any bytes; each program has seen exactly the earlier requests of the connection for the same host, and a refused head is answered by the program which the `Host` read before the fault is for (C105).
* **C100 Applications of two functions, end to end** — C32_reply_readable for router/simple. A malformed head is served by the same request object as the requests before it: Proofs/FaultSeen.lean follows method and version through the parser, so that the reply to a malformed head is readable as the reply to the method this head names.
* **C101 Whatever a client sends, it can read what it gets** — C93 splits every stream into requests and one end; induction over the conversation (`conversation_read_any`) reads the responses back, up to the request which closes the connection; each kind of end by its own lemma. Requests for other protocols (`Upgrade`) included: the reader `readAnswers` takes interim responses into account. Not claimed: the ends for which it is false (no version, no method; `C101_no_version_violation`, `C101_long_method_violation`) or C93 says nothing (`Outside`). `C101_program_partial`: instantiated with programs of the built-in router; the handlers which answer are those of `Chosen` and `handlerFor`, and TRACE requests are answered by the router (`MetWith`). `C101_any_program_partial`: the same for every program, with routes of any texts (C104), and whatever paths are asked for.
* **C102 The example programs do what they show** — Model/Examples.lean has their handlers and routers, as calls of the model of the API. Instances of the end-to-end theorems (C87_trace, C100, C50), with the routing computed for all paths; for `middlewares`, handlers in the monad of a log. This also shows that the hypotheses of those theorems are met by programs as they are written. examples/combined (Spec/Combined.lean: what it answers): false for its handler for POST requests to `/`, which is never called because of an alias (`C102_combined_violation`); partial for empty files and HTTP/1.0, see C88.
* **C103 What is sent is what was set on the response which is returned** — Model/OneResponse.lean: response objects behind pointers, of which the request has one. Invariant over the statements, relating each object to the calls made on it.
* **C104 Every router which can be built does one known thing for every request** — Spec/RadixExact.lean says what any text of a route is taken for (`meant`), Spec/EveryRouter.lean how paths are looked up (`Looks`: as texts if no route has a variable, otherwise by the templates, with one route picked for each). `C104_accepted` is an equivalence; `C104_every_router` has no hypothesis but that the router could be built. False where one expects every registered route to be reachable: `C104_dead_route_violation`, `C104_map_order_violation`. `C104_history`: whatever it has served before, and what its echoes then contain. Used for C101 (`C101_any_program_partial`).
* **C105 What an error handler sees of a refused head** — Spec/Fault.lean: `FaultAfter` (a head, well-formed up to a line with a fault) and `ReadSoFar`: the request carries exactly that head (`Carries`, the relation of C01 and C22); or it is the first line which has the fault, and there are no headers at all. `C105_parser_partial` for the parser fed any segments; `C105_error_handler_partial` for a connection with any requests before. The content length may be that of the faulty line (`LengthLine`). Too long request lines: `C105_long_line_parser`, `C105_long_line`: no headers and no query. `C105_request_line_parser`: what a refused request line does to path, query and version. False of heads with lines without colon, that is, names of headers with CR or LF, of which it depends on the segments what is read: `C105_segments_violation`.
* **C106 AutoHTTPS** — Model/Https.lean: `homeDir`, `cacheDir`, `mkdirIfNotExists`, `tlsListener`, `autoTLSListener` and the template of self-signed certificates, on top of `AutoHTTPS` (C73) and the files (C85). Spec/Https.lean has what others do with it, from their RFCs: `MayRequest` (autocert's policy), `FollowsALPN` and `MayPass` (RFC 7301, RFC 8737), `IsFor` (RFC 9525), `Usable` (RFC 5280), `UserCache`.
  By unfolding: `C106_names_partial`, `C106_cache`, `C106_ten_years`. Failing: `C106_any_name_violation` (without domains, certificates are requested for any name a client makes up), `C106_no_certificate_violation` (`NextProtos` lacks `acme-tls/1`, so that the authority's check never passes), `C106_no_host_violation` (self-signed certificates have no names in them), `C106_expired_violation` (by `C85_used_again`).
* **C107 Whatever comes on a connection** — no assumption about the bytes, their cuts or the chunked decoder. Proofs/SessionParser.lean: an invariant of the parser at every label (`At`: after the request line the version is a supported one, the method a known one and the path not empty; what is asked for by Upgrade is a known protocol), for every call of `Parse` on any data (`parse_at`). For virtual hosts: `C107_hosts`, through `hosts_steady`.
  Proofs/Session.lean: `Session`, the ways a connection can go, and `serve_session`: every run of the loop is one of them, by induction on the iterations. `C107_calls` (any router) and `C107_answers` (routers which are `Steady`) follow by induction on `Session`, the latter with the readers of C71 and C101. It also covers the streams of kind `outside` and what comes after a garbled body, of which C93 and C101 say less. `C107_program`: routers made by any program with the built-in router are steady if its handlers answer (`program_steady`), and each answer is the one of the handler which is to be called (`MetWith`, as in C101).
* **C108 Stopping the application from its own callbacks** — Model/Callbacks.lean: the transition system of C47 with the callers of `Stop` and `GracefulStop` which are code the application runs itself; a hook or handler does not go on before its call has returned. False of OnStart and OnStop (`C108_OnStart_violation`, `C108_OnStop_violation`: an invariant of all executions from there) and of every handler which calls after the first message was received (`C108_second_handler_violation`: the handler waits for the application, which waits for the handler). Proved of the first handler (`C108_first_handler_partial`), and that nothing else keeps the application from being stopped (`C108_goes_on_partial`).
* **C109 A client which cannot be written to any more** — Two runs of the serving loop on the same input, one with failing writes and one without (Proofs/Deaf*.lean): handlers, bodies and the parser do not depend on the output side (`run_as`), and the serializer with failing writes writes a prefix (`write_better`); by induction on the iterations (`loop_sim`). `C109_last_write` by induction on `Session` (C107) with an invariant of all writing loops (`Careful`). `C109_answers` combines this with C107: no assumption about reads or writes at all. For programs and for virtual hosts: `C109_program`, `C109_hosts`.
* **C110 How the bytes of requests are cut into pieces makes no difference** — A property of two runs. What is delivered to the router for a request is unique up to the memory its storages use (`delivered_unique`, from C22's `Delivered`); an application whose answers are functions of that (`Repeatable`, Spec/Same.lean) answers both clients alike, and so the serializer, whose output depends on the request in four fields only, writes the same frames: induction over two conversations at once (`conversation_same`). For applications of two functions and for programs of the built-in router the hypothesis is about the handlers (`handlerOf`, `Determined`): the router calls the same handler with requests which say the same (Proofs/RouterSame.lean). TRACE requests are covered too: the buffer of echoes is the same after histories which say the same. `C110_hosts` says the same of programs behind virtual hosts: the host which is called, and what its router has seen before, are functions of what the requests say (Props/SameHosts.lean). Not covered: malformed tails.
* **C111 A request is answered on a used connection as on a new one** — A property of many runs: `Spec/Reuse.lean` says what one connection is to be, given what is written on connections opened for each request (`inTurn`). The proof compares, request by request, the conversation of C22 with the one of the request alone: a serializer between two responses writes the same bytes as a new one, whatever its memory for files holds (`Proofs/Reuse.lean`), if no response has set a default header; and the router's state is the same. `C111_reuse_partial` for applications whose answers are functions of the request, `C111_two_functions_partial` for a handler and an error handler, `C111_program_partial` for programs of the built-in router, `C111_hosts_partial` for such programs behind virtual hosts (plain connections, no TRACE: see C23 and C42). False of default headers, which do not come back once a response has set them: `C111_defaults_violation`. Missing besides: requests with Upgrade.
* **C112 The answer to HEAD is the head of the answer to the same GET request** — A property of two runs: `Spec/HeadLike.lean` says what the same request with HEAD is, and which handlers do not look at the method. The two conversations of C22 are the same up to the last request (as in C110); then the router passes both requests to the same handler (`Proofs/RouterHead.lean`), and the serializer, in the same state, writes for HEAD what it writes first for GET. `C112_head_like_get` for all applications whose answers are functions of what is sent and which answer both requests the same, `C112_two_functions` for a handler and an error handler, `C112_program` for programs of the built-in router without handlers for HEAD, `C112_hosts` for several of these behind virtual hosts.
* **C113 How a request is written makes no difference** — A property of two runs: `Spec/Spelling.lean` says when two requests say the same. What is delivered to the router for one of them is what is delivered for the other one (`delivered_said`), so the conversations of C22 are the same, request by request, as in C110. `C113_same_said` for all applications whose answers are functions of what is sent, `C113_two_functions`, `C113_program` and `C113_hosts` as for C110.
* **C114 The letter case of the names of headers makes no difference** — A property of two runs: `Spec/AnyCase.lean` says when requests are the same but for the case of names, and which handlers do not look at it. What is delivered differs in the case of keys only (`delivered_alike`), the router passes both to the same handler (`Proofs/RouterCase.lean`), and the conversations of C22 are the same, request by request. `C114_any_case` for all applications whose answers are functions of what is sent, `C114_two_functions`, `C114_program` and `C114_hosts` as for C110 (without TRACE, whose answer repeats names), `C114_lookups` for the methods of the storage.
* **C115 Cookies are what was said about them while building them** — `Model/CookieBuilder.lean`: builders in variables, methods with value receivers. `Spec/CookieBuilder.lean` describes cookies by the calls on the way to them, without builders. `C115_built` by induction over the program; `C115_told_partial` with C34: what a client reads in Set-Cookie (`MaxAge` instead of `Max-Age`).
* **C116 The order of registrations makes no difference** — `Spec/Reorder.lean` says what a reordering is, in terms of the calls. Everything the specification of routers (C35–C41, C59) and C104 are in terms of is the same for both programs, up to permutation; `C116_alike` from C104 and the uniqueness of what is chosen; `C116_same` for programs without variables, from the tables themselves; `C116_wire` by a simulation of the two servers. The order of the allowed methods is the one of a Go map if there are variables, so that nothing can be said about it.
* **C117 A new route changes nothing for other requests** — `Spec/NewRoute.lean` says which operations only add routes, at which paths, and when a path goes another way than a template. Routes added at the end leave groups, middlewares, catchers, error handlers and mutators alone (`Props/NewRoute.lean`), so that the tables of C104 agree on every path which is not among the new ones; with variables the lookups agree for paths which leave the new templates at a literal section before any variable of the old routes. `C117_wire_partial` lifts it to the whole connection by the simulation of C79 (`serve_like`). `C117_shadow_violation` and `C117_root_violation` show what goes wrong with variables.
* **C118 Additions concern only what they are about** — `Spec/Additions.lean` says which routes and catchers belong to a group, and which requests are for a new virtual host. The new program has the same routes, hence by C104 the same lookup; what is chosen is then the same but for what was added (`Props/Additions.lean`). For hosts (`Props/NewHost.lean`) an invariant over the history: the virtual router is the former one with one more host at its end, in whatever state. `C118_host_wire` carries this over to whole connections by the relation on routers of `Proofs/Concurrent.lean`.
