{"id": "C01", "title": "A well-formed request head is parsed the same way however TCP splits it", "statement": "For every well-formed HTTP/1.x request head that fits the configured limits, followed by arbitrary further bytes, and for every way of cutting that byte stream into read() segments, the handler is given exactly the method, decoded path, raw query, protocol, header list (in order, with duplicates) and content length written in the head, and the bytes following the head are handed on untouched as the unconsumed rest.", "quantifier": "all well-formed request heads, all trailing bytes, all segmentations into non-empty reads, all configurations whose limits admit the head", "why_tests_cant": "the number of segmentations is exponential in the message length, and the parser has a different code path for every token that straddles a segment boundary", "anchors": ["internal/protocol/http1/parser.go:Parser.Parse", "internal/protocol/http1/parser.go:Parser.cleanup"]}
{"id": "C02", "title": "The parser accepts nothing but request heads", "statement": "Whenever a request head arriving in one segment is accepted, the consumed bytes really are a request line (known method, non-empty target, supported protocol) followed by header lines and an empty line, and the request given to the handler carries exactly the values found in these lines.", "quantifier": "all byte strings (including malformed and hostile ones), all configurations", "why_tests_cant": "tests can only sample malformed inputs; soundness is about all of them", "anchors": ["internal/protocol/http1/parser.go:Parser.Parse"]}
{"id": "C03", "title": "No input bytes can crash the request parser", "statement": "Whatever bytes a client sends, in whatever segmentation, parsing ends in 'more data needed', 'head complete' or an HTTP error; it never panics (there is no recover in the server loop, so a panic kills the whole process).", "quantifier": "all byte streams and all segmentations", "why_tests_cant": "absence of panics is a statement over every input; fuzzing only samples", "anchors": ["internal/protocol/http1/parser.go:Parser.Parse"]}
{"id": "C04", "title": "Header count limit", "statement": "However many header lines a client sends and however they are segmented, a handler never sees more than Headers.Number.Maximal headers, and a head with more header lines than that is answered with 431 Too many headers.", "quantifier": "all byte streams, all segmentations, all configurations", "why_tests_cant": "the counter must be right over arbitrary histories of chunks", "anchors": ["internal/protocol/http1/parser.go:Parser.Parse", "config/config.go:HeadersNumber"]}
{"id": "C05", "title": "Header and request line memory limits", "statement": "Whatever a client sends, the memory holding buffered header keys, header values and the request line never exceeds the configured maxima, and no header value longer than MaxValueLength (counted with its line terminator's CR and leading blanks) reaches a handler; the names, and the values, of the headers a handler gets fit in these maxima together. A request line longer than its maximum is refused, even before its end has come.", "quantifier": "all byte streams, all segmentations, all configurations", "why_tests_cant": "resource bounds have to hold after any number of segments", "anchors": ["internal/protocol/http1/parser.go:Parser.Parse", "internal/protocol/http1/suit.go:Initialize", "config/config.go:Headers"]}
{"id": "C06", "title": "Header key length limit is enforced", "statement": "A header whose key is longer than the configured Headers.MaxKeyLength is rejected with 431.", "quantifier": "all requests and configurations", "why_tests_cant": "limits have to hold for every key length and segmentation", "anchors": ["config/config.go:Headers.MaxKeyLength", "internal/protocol/http1/parser.go:Parser.Parse"]}
{"id": "C07", "title": "Content-Length is the decimal number written in the header", "statement": "When a request carrying a Content-Length header is accepted, the declared body length used for framing is exactly the decimal value written in that header; contradictory or overflowing values are not accepted.", "quantifier": "all digit strings of any length, any number of Content-Length headers, all segmentations", "why_tests_cant": "overflow and accumulation show only at particular magnitudes and repetitions", "anchors": ["internal/protocol/http1/parser.go:Parser.Parse"]}
{"id": "C08", "title": "Special headers are recognised by name only", "statement": "A header line is treated as Content-Length, Connection, Content-Type, Content-Encoding, Transfer-Encoding, Upgrade or Trailer exactly when its key equals that name up to ASCII letter case.", "quantifier": "all header keys", "why_tests_cant": "2^112 keys of length 14 alone", "anchors": ["internal/protocol/http1/parser.go:Parser.Parse", "internal/protocol/http1/parser.go:encodeU64"]}
{"id": "C09", "title": "URI percent-decoding inverts percent-encoding", "statement": "Decoding a percent-encoded string yields the original bytes for every byte string and every choice of which bytes are escaped; a string without escapes is returned unchanged; a truncated escape is an error.", "quantifier": "all byte strings, all choices of escaped positions, both hex digit cases", "why_tests_cant": "unbounded strings and exponentially many encodings", "anchors": ["internal/uridecode/decoder.go:Decode", "internal/hexconv/hexconv.go:Parse"]}
{"id": "C10", "title": "Malformed percent escapes are rejected", "statement": "A percent sign that is not followed by two hexadecimal digits makes the request fail with ErrURIDecoding.", "quantifier": "all byte strings", "why_tests_cant": "must hold for all 65536-484 digit pairs at all positions", "anchors": ["internal/uridecode/decoder.go:Decode", "internal/hexconv/hexconv.go:Parse"]}
{"id": "C11", "title": "In-place decoding is safe", "statement": "Decoding a URI into its own storage gives the same result as decoding into fresh storage, and changes no byte outside the decoded range.", "quantifier": "all memory contents, all positions of the decoded range, all inputs", "why_tests_cant": "aliasing errors appear only for particular interleavings of copied runs and escapes", "anchors": ["internal/uridecode/decoder.go:Decode", "internal/protocol/http1/parser.go:Parser.Parse", "http/query/internal/parser.go:Parse"]}
{"id": "C12", "title": "Query parameters are delivered as encoded by the client", "statement": "Parsing the application/x-www-form-urlencoded encoding of a list of key/value pairs yields exactly that list, in order; a parameter without '=' is a flag with value 1; an empty key before '=' is an error.", "quantifier": "all lists of pairs of byte strings", "why_tests_cant": "unbounded lists and arbitrary contents", "anchors": ["http/query/query.go:Query", "http/query/internal/parser.go:Parse"]}
{"id": "C13", "title": "A malformed query is always reported", "statement": "If the raw query is malformed, every access to the query reports the error, not only the first one; reading the query never changes what Raw() returns.", "quantifier": "all raw queries, all sequences of accesses", "why_tests_cant": "depends on the history of accesses", "anchors": ["http/query/query.go:Query.Get", "http/query/query.go:Query.Unwrap", "http/query/query.go:Query.Raw"]}
{"id": "C14", "title": "Header storage is a case-insensitive ordered multimap", "statement": "After any sequence of Add and Clear operations: Value(k) is the first value added under a key equal to k up to case, Values(k) lists all of them in insertion order, Has(k) tells whether there is one, Keys() lists each key once in order of first insertion, and Clone is independent of later changes.", "quantifier": "all operation histories, all keys and values", "why_tests_cant": "behaviour depends on the whole history of operations", "anchors": ["internal/keyvalue/storage.go:Storage"]}
{"id": "C15", "title": "Method tokens", "statement": "Every one of the supported method names is recognised as that method and rendered back to the same name, and nothing else (no other byte string, case variant or prefix) is recognised as a method.", "quantifier": "all byte strings as method token", "why_tests_cant": "infinitely many tokens", "anchors": ["http/method/method.go:Parse", "http/method/method_string.go:String"]}
{"id": "C16", "title": "Protocol tokens", "statement": "Exactly the tokens HTTP/1.0, HTTP/1.1 and the HTTP/2 forms are recognised as protocol versions, and a recognised HTTP/1.x version is rendered back as the same token.", "quantifier": "all byte strings as protocol token", "why_tests_cant": "infinitely many tokens", "anchors": ["http/proto/proto.go:FromBytes", "http/proto/proto.go:Parse", "http/proto/proto.go:Proto.String"]}
{"id": "C17", "title": "Transfer-Encoding tokens", "statement": "For every comma separated list of at most MaxEncodingTokens codings with optional white space, the request's encodings are exactly the listed non-empty tokens in order, and it is marked chunked exactly when one of them is 'chunked' up to case; a longer list is answered with an error.", "quantifier": "all token lists, all white space, all configurations", "why_tests_cant": "unbounded lists", "anchors": ["internal/protocol/http1/parser.go:parseEncodingString"]}
{"id": "C18", "title": "A sized body is delivered exactly once and completely", "statement": "For a request with Content-Length n not larger than Body.MaxSize, however the bytes are segmented, the pieces obtained by Retrieve concatenate to exactly the n bytes following the head, then EOF is reported for ever, and all bytes after them remain available for the next request.", "quantifier": "all contents, lengths, segmentations and trailing bytes", "why_tests_cant": "exponentially many segmentations; off-by-one at the boundary corrupts the following request", "anchors": ["internal/protocol/http1/body.go:Body.Retrieve", "internal/protocol/http1/body.go:plainBodyReader.read", "internal/tcp/client.go:Client.Unread"]}
{"id": "C19", "title": "Body size limit", "statement": "Whatever the client announces or sends, plain or chunked, the total number of body bytes delivered for one request never exceeds Body.MaxSize, and a longer body is reported as ErrBodyTooLarge (413).", "quantifier": "all request bodies, segmentations, chunk layouts and configurations", "why_tests_cant": "must hold on all histories of reads", "anchors": ["internal/protocol/http1/body.go:plainBodyReader.read", "internal/protocol/http1/body.go:chunkedBodyReader.read"]}
{"id": "C20", "title": "All body accessors see the same body", "statement": "Bytes, String, Callback, Read with any buffer sizes, and repeated Retrieve all yield the same total contents of a fresh body; Discard leaves nothing behind.", "quantifier": "all bodies, segmentations, read buffer sizes and callbacks that do not fail", "why_tests_cant": "buffer sizes and segmentations combine without bound", "anchors": ["internal/protocol/http1/body.go:Body", "internal/stash/reader.go:Reader.Read"]}
{"id": "C21", "title": "A request never observes another request's body", "statement": "What the body accessors return for a request depends only on this request's own bytes, never on bodies of earlier requests of the connection, whatever accessors are called in whatever order.", "quantifier": "all sequences of requests, all accessor call sequences", "why_tests_cant": "needs particular accessor orders over several requests on one connection", "anchors": ["internal/protocol/http1/body.go:Body.Bytes", "internal/protocol/http1/body.go:Body.Init"]}
{"id": "C22", "title": "Pipelined requests are answered in order, each with its own bytes", "statement": "For every sequence of well-formed requests with bodies sent on one connection, in any segmentation, and whatever part of each body the handlers read, the handler is invoked once per request, in order, with exactly that request's head and body, and the responses are written in the same order.", "quantifier": "all request sequences, segmentations and handler behaviours", "why_tests_cant": "combines parser, body reader, client buffer and handler over arbitrary histories", "anchors": ["internal/protocol/http1/suit.go:Suit.serve", "internal/protocol/http1/body.go:Body", "internal/tcp/client.go:Client", "http/request.go:Request.Clear"]}
{"id": "C23", "title": "Request state does not leak to the next request", "statement": "After a request is finished, the next handler (or error handler) on the same connection sees path, headers, params, query, content length, encodings, content type, connection, upgrade, cookies and context only from its own request, while connection-level facts (remote address, encryption) are retained.", "quantifier": "all request histories on a connection", "why_tests_cant": "quantifies over pairs of consecutive requests", "anchors": ["http/request.go:Request.Clear", "internal/protocol/http1/parser.go:Parser.cleanup"]}
{"id": "C24", "title": "Bytes pushed back to the connection are not lost", "statement": "For every sequence of Read and Unread(suffix of the last read) calls, the concatenation of consumed bytes is a prefix of the stream received from the peer; no byte is lost, duplicated or reordered.", "quantifier": "all call sequences, all segmentations", "why_tests_cant": "histories of calls", "anchors": ["internal/tcp/client.go:Client.Read", "internal/tcp/client.go:Client.Unread"]}
{"id": "C25", "title": "Every response is a parseable HTTP/1.x message carrying what the handler set", "statement": "For every response with header keys and values free of CR/LF, the bytes written parse (by an independent reader) as status line, headers and body with the status code, all user headers in order, the applicable default headers, the content type, a Content-Length equal to the body length, and exactly the body.", "quantifier": "all response codes, headers, bodies, protocol versions, default header sets", "why_tests_cant": "unbounded header lists and bodies", "anchors": ["internal/protocol/http1/serializer.go:Serializer.Write", "internal/protocol/http1/serializer.go:renderHeaders", "internal/protocol/http1/serializer.go:renderResponseLine"]}
{"id": "C26", "title": "Header values cannot split the response", "statement": "Whatever header keys and values (including ones derived from client input, such as redirect targets) the application sets, the response written contains exactly these headers; a value cannot introduce additional header lines or end the head.", "quantifier": "all header values", "why_tests_cant": "must hold for all byte strings", "anchors": ["internal/protocol/http1/serializer.go:renderHeader", "router/inbuilt/middleware/httpsonly.go:HTTPSOnly"]}
{"id": "C27", "title": "Default headers are present in every response unless overridden by it", "statement": "Each response on a connection contains a configured default header exactly when the response itself does not set a header of that name (up to case), independently of earlier responses.", "quantifier": "all sequences of responses on a connection", "why_tests_cant": "history dependent", "anchors": ["internal/protocol/http1/serializer.go:defaultHeaders", "internal/protocol/http1/serializer.go:Serializer.clear"]}
{"id": "C28", "title": "HEAD responses carry no body", "statement": "The response to a HEAD request consists of the very head the corresponding GET would produce and no body bytes, for in-memory bodies and attachments alike.", "quantifier": "all responses", "why_tests_cant": "all response shapes", "anchors": ["internal/protocol/http1/serializer.go:Serializer.Write", "internal/protocol/http1/serializer.go:sendAttachment"]}
{"id": "C29", "title": "Chunked attachment stream decodes to the attachment", "statement": "For every reader of unknown size and every way it returns its data, the bytes written after the head are a chunked encoding which an independent decoder decodes to exactly the reader's data, with one terminating zero chunk.", "quantifier": "all readers (all sequences of read results), all buffer sizes from 16", "why_tests_cant": "unbounded numbers of chunks and sizes", "anchors": ["internal/protocol/http1/serializer.go:writeChunkedBody"]}
{"id": "C30", "title": "Sized attachment stream", "statement": "For an attachment of declared size n whose reader yields n bytes, exactly these n bytes are written after the head, whatever the read sizes and also when the last data arrive together with io.EOF.", "quantifier": "all readers, all buffer sizes", "why_tests_cant": "all sequences of read results", "anchors": ["internal/protocol/http1/serializer.go:writePlainBody"]}
{"id": "C31", "title": "Connection persistence follows the protocol", "statement": "After a response, the connection is kept exactly when HTTP/1.1 without 'Connection: close' or HTTP/1.0 with 'Connection: keep-alive' (up to case), for all kinds of response; otherwise it is closed after the complete response has been written.", "quantifier": "all requests and responses", "why_tests_cant": "decision table over all header values", "anchors": ["internal/protocol/http1/serializer.go:isKeepAlive", "internal/protocol/http1/serializer.go:Serializer.Write", "internal/protocol/http1/serializer.go:sendAttachment"]}
{"id": "C32", "title": "A malformed request is answered once and the connection closed", "statement": "If the stream contains a malformed or over-limit request head, all previous requests are answered normally, then one error response carrying that error's status code is written, after which nothing is read, handled or written on the connection.", "quantifier": "all byte streams and segmentations", "why_tests_cant": "combines arbitrary history with an error", "anchors": ["internal/protocol/http1/suit.go:Suit.serve"]}
{"id": "C33", "title": "Cookies: parsing what a browser sends", "statement": "Parsing the Cookie header rendering of a list of name/value pairs gives exactly these pairs, in order, for all names and values of the cookie alphabet.", "quantifier": "all lists of pairs", "why_tests_cant": "unbounded", "anchors": ["http/cookie/jar.go:Parse"]}
{"id": "C34", "title": "Set-Cookie rendering", "statement": "For every cookie the Set-Cookie line consists of name=value followed by exactly the attributes which are set, separated by '; ', so that an independent attribute parser recovers all of them.", "quantifier": "all cookies", "why_tests_cant": "all combinations of attributes", "anchors": ["internal/protocol/http1/serializer.go:renderCookie", "http/cookie/cookie.go:Builder"]}
{"id": "C35", "title": "Static routing is exact", "statement": "With only static routes, a request for a registered method and path reaches exactly that route's handler; a path registered only for other methods yields 405 with an Allow header listing exactly the registered methods; every other path yields 404 or the catcher; HEAD falls back to GET, and TRACE requests for a path not registered for TRACE are answered by the router itself. The answers do not depend on requests served before.", "quantifier": "all route tables, all requests", "why_tests_cant": "all registration histories", "anchors": ["router/inbuilt/inbuilt.go:runtimeRouter.onRequest", "router/inbuilt/types.go:routesMap", "router/inbuilt/registrar.go:registrar"]}
{"id": "C36", "title": "Dynamic routing: templates match the paths they describe", "statement": "In a router with templates, a path is routed to the template's payload exactly when it is an instance of the template, with each named wildcard bound to the corresponding segment; static segments take precedence over wildcards.", "quantifier": "all template sets, all paths", "why_tests_cant": "all trees and paths", "anchors": ["router/inbuilt/internal/radix/tree.go:Node.Match", "router/inbuilt/internal/radix/tree.go:Node.Insert", "router/inbuilt/internal/radix/template.go:Parse"]}
{"id": "C37", "title": "Distinct templates stay distinct", "statement": "Two templates which describe different path sets never share a route: registering one does not overwrite the other and requests for one never reach the other.", "quantifier": "all pairs of templates", "why_tests_cant": "all templates", "anchors": ["router/inbuilt/internal/radix/template.go:Parse", "router/inbuilt/internal/radix/tree.go:Node.Insert"]}
{"id": "C38", "title": "Middlewares run in registration order around the handler", "statement": "For every nesting of groups, a request passes the middlewares of the outer router first, then the group's, then the route's, each in registration order, before the handler; each is applied exactly once.", "quantifier": "all middleware lists, group nestings", "why_tests_cant": "unbounded nesting", "anchors": ["router/inbuilt/middlewares.go:compose", "router/inbuilt/groups.go:Router.prepare"]}
{"id": "C39", "title": "The most specific catcher wins", "statement": "Among all catchers whose prefix is a prefix of the request path, the longest one handles the request, whatever the registration order; without one the request fails with 404.", "quantifier": "all catcher lists and paths", "why_tests_cant": "all registration orders", "anchors": ["router/inbuilt/catchers.go", "router/inbuilt/inbuilt.go:Initialize"]}
{"id": "C40", "title": "Static files never escape their root", "statement": "No request path makes the Static handler open a file path outside the configured root directory, also with several connections served at the same time.", "quantifier": "all request paths, all roots, all interleavings of concurrent requests", "why_tests_cant": "all paths and schedules", "anchors": ["router/inbuilt/static.go:Static", "router/inbuilt/static.go:isSafe", "internal/pathlib/pathlib.go:Path"]}
{"id": "C41", "title": "Error handlers are chosen by status code", "statement": "An error raised by the server or a handler is passed to the handler registered for its status code if there is one, otherwise to the all-errors handler, and otherwise produces a response with that error's code.", "quantifier": "all errors, all registrations", "why_tests_cant": "all registration tables", "anchors": ["router/inbuilt/inbuilt.go:OnError", "router/inbuilt/inbuilt.go:retrieveErrorHandler", "router/inbuilt/route.go:RouteError"]}
{"id": "C42", "title": "TRACE echoes only the request itself", "statement": "The body of the response to a TRACE request is the rendering of that very request, independent of any other request served by the application; on the wire this is what the client which sent the request reads, with the code 200 and the type message/http.", "quantifier": "all request histories", "why_tests_cant": "history dependent", "anchors": ["router/inbuilt/inbuilt.go:OnError", "router/inbuilt/trace.go:renderHTTPRequest"]}
{"id": "C43", "title": "Path normalisation", "statement": "Trailing slashes are insignificant: normalising is idempotent, never changes the root path, and two paths differing only in trailing slashes have the same normal form.", "quantifier": "all paths", "why_tests_cant": "all strings", "anchors": ["router/inbuilt/uri/normalize.go:Normalize"]}
{"id": "C44", "title": "Virtual hosts", "statement": "A request with exactly one Host header is passed to the router registered for that host (up to letter case, default port and www prefix), otherwise to the default router, otherwise rejected with 421; missing or repeated Host headers are rejected or go to the default router.", "quantifier": "all registrations and Host values", "why_tests_cant": "all host strings", "anchors": ["router/virtual/virtual.go:getRouter", "router/virtual/internal/domain/normalize.go:Normalize"]}
{"id": "C45", "title": "HTTPS-only middleware lets no plaintext request through", "statement": "Behind HTTPSOnly, a request arriving over an unencrypted, non-local connection is always redirected to https and its handler not run, and a request arriving over TLS always reaches its handler.", "quantifier": "all listener configurations, all requests of a connection", "why_tests_cant": "depends on which listener and which request of the connection", "anchors": ["router/inbuilt/middleware/httpsonly.go:HTTPSOnly", "indi.go:App.bind", "http/request.go:Request.Clear"]}
{"id": "C46", "title": "OnStop is called after the last client is gone", "statement": "On shutdown the OnStop callback runs only when no connection is being served any more, and no connection is served afterwards.", "quantifier": "all interleavings of accept loops, connection handlers and the shutdown sequence", "why_tests_cant": "races", "anchors": ["indi.go:App.run", "internal/tcp/server.go:Server"]}
{"id": "C47", "title": "Stop and GracefulStop do not block and terminate the app once", "statement": "Calling Stop or GracefulStop any number of times, in any state of the app, returns immediately; Serve returns after the first of them; graceful stop serves running connections to their end. A listener which fails ends the application, too, and one report of it is enough.", "quantifier": "all interleavings of calls and events", "why_tests_cant": "schedules", "anchors": ["indi.go:App.Stop", "indi.go:App.GracefulStop", "indi.go:App.run"]}
{"id": "C48", "title": "Each listener's connections use that listener's handler", "statement": "A connection accepted on a listener is served with the handler and encryption token configured for that listener, for any number of listeners.", "quantifier": "all listener lists", "why_tests_cant": "all configurations", "anchors": ["indi.go:App.bind"]}
{"id": "C49", "title": "Configuration defaults", "statement": "Filling a configuration keeps every field the user set and replaces exactly the unset fields by the default; filling twice equals filling once; the default configuration is consistent.", "quantifier": "all configurations", "why_tests_cant": "all combinations of set and unset fields", "anchors": ["config/config.go:Fill", "config/config.go:Default"]}
{"id": "C50", "title": "Hijacked connections are left alone", "statement": "After a handler hijacks the connection, the body is drained first, the server writes and reads nothing more on it, and the bytes following the request remain readable by the hijacker.", "quantifier": "all requests, segmentations and handlers that hijack", "why_tests_cant": "all histories", "anchors": ["http/request.go:Request.Hijack", "internal/protocol/http1/suit.go:Suit.serve"]}
{"id": "C51", "title": "Status lines", "statement": "For every status code, the status line written carries exactly this code and its registered reason phrase, also for custom codes and custom reason phrases.", "quantifier": "all codes", "why_tests_cant": "all codes and texts", "anchors": ["http/status/codes.go:Line", "http/status/codes.go:Text", "internal/protocol/http1/serializer.go:renderResponseLine"]}
{"id": "C52", "title": "Response builder", "statement": "Respond() always starts from a blank response regardless of what previous handlers on the connection set; setters affect only their own part; Error(err) yields the error's code, or 500 for non-HTTP errors.", "quantifier": "all sequences of builder calls", "why_tests_cant": "histories", "anchors": ["http/response.go:Response", "internal/response/fields.go:Fields.Clear"]}
{"id": "C53", "title": "Escaped paths are safe to log", "statement": "Escape leaves only printable ASCII in the output for every input and leaves printable ASCII input unchanged.", "quantifier": "all byte strings", "why_tests_cant": "all strings", "anchors": ["http/path.go:Escape"]}
{"id": "C54", "title": "Internal maps behave as maps", "statement": "The routing tree's children table (array first, hash map when large) and the length-bucketed string map return after any history of insertions the value a plain map would.", "quantifier": "all insertion histories", "why_tests_cant": "threshold switch in mid-history", "anchors": ["router/inbuilt/internal/radix/arrmap.go:arrMap", "internal/strlenmap/map.go:Map"]}
{"id": "C55", "title": "Header value accessors", "statement": "ValueOf, ParamOf, QualityOf and CharsetOf applied to a rendered value with parameters return the value, the parameter and the quality written there, or the documented default.", "quantifier": "all values and parameter lists", "why_tests_cant": "all strings", "anchors": ["http/headers/valueaccessors.go"]}
{"id": "C56", "title": "Upgrade token selection", "statement": "Among the tokens of an Upgrade header the first one naming a supported protocol is chosen, and none if there is no such token; if it is a version of HTTP/1, the answer is in this version and comes after a 101 response in the version of the request, which names the protocol upgraded to.", "quantifier": "all token lists; all sequences of requests with such headers on a connection, segmentations, handlers and configurations", "why_tests_cant": "all strings; the 101 response is one object shared by all requests of the connection", "anchors": ["http/proto/upgrade.go:ChooseUpgrade", "internal/protocol/http1/suit.go:Suit.serve"]}
{"id": "C57", "title": "Aliases", "statement": "An alias maps exactly its own path to its target before routing and leaves all other requests alone.", "quantifier": "all alias tables and paths", "why_tests_cant": "all strings", "anchors": ["router/inbuilt/aliases.go:Router.Alias", "router/inbuilt/mutator/alias.go:Alias"]}
{"id": "C58", "title": "Address normalisation", "statement": "Listening address normalisation adds the wildcard host exactly to addresses without a host and otherwise changes nothing; it is idempotent.", "quantifier": "all address strings", "why_tests_cant": "all strings", "anchors": ["internal/address/address.go:Normalize"]}
{"id": "C59", "title": "Group prefixes", "statement": "A route registered in a group of any nesting depth is reachable exactly under the joined prefixes, and merging groups loses or overwrites no route: conflicting registrations are reported.", "quantifier": "all group nestings and routes", "why_tests_cant": "unbounded nesting", "anchors": ["router/inbuilt/groups.go", "router/inbuilt/registrar.go:registrar.Merge"]}
{"id": "C60", "title": "A truncated body is not taken for a complete one", "statement": "If the connection ends or fails before the whole declared body has arrived, the body accessors report an error; they never present the part that arrived as the complete body.", "quantifier": "all bodies, all positions at which the connection breaks, all kinds of failures", "why_tests_cant": "crash points at every byte and every kind of connection error", "anchors": ["internal/protocol/http1/body.go:plainBodyReader.read", "internal/protocol/http1/body.go:Body.Bytes"]}
{"id": "C61", "title": "No declared length can crash the server", "statement": "Whatever Content-Length a client declares, reading the body never panics or allocates more than the configured maximum.", "quantifier": "all declared lengths and configurations", "why_tests_cant": "only huge values fail", "anchors": ["internal/protocol/http1/body.go:Body.Bytes"]}
{"id": "C62", "title": "A rejected body does not desynchronise the connection", "statement": "After a body has been rejected as too large, either the connection is closed or exactly the rest of that body is skipped; bytes following it are never taken for its continuation.", "quantifier": "all bodies, limits, segmentations", "why_tests_cant": "depends on where segments end relative to chunks", "anchors": ["internal/protocol/http1/body.go:chunkedBodyReader.read", "http/request.go:Request.Clear"]}
{"id": "C63", "title": "Responses are framed unambiguously", "statement": "Every response states the end of its body exactly once: by one Content-Length equal to the number of body bytes, or by the chunked coding, never by both or by two lengths.", "quantifier": "all responses, with and without attachments, whatever headers the application sets", "why_tests_cant": "combinations of application headers, transfer encodings, attachments and defaults are unbounded", "anchors": ["internal/protocol/http1/serializer.go:Serializer.Write", "internal/protocol/http1/serializer.go:Serializer.sendAttachment", "http/response.go:Response.TransferEncoding"]}
{"id": "C64", "title": "Attachments are closed", "statement": "The reader of an attachment (an open file, for instance) is closed after the response, whatever the request method and wherever reading or writing fails.", "quantifier": "all responses with attachments, all failures of the reader and of the connection", "why_tests_cant": "failures at every point of the transfer", "anchors": ["internal/protocol/http1/serializer.go:Serializer.sendAttachment"]}
{"id": "C65", "title": "HTTP/1.0 clients are not sent the chunked coding", "statement": "A response to an HTTP/1.0 request never uses a transfer encoding the application has not asked for.", "quantifier": "all responses and protocol versions", "why_tests_cant": "combination of protocol versions with readers of unknown size", "anchors": ["internal/protocol/http1/serializer.go:Serializer.sendAttachment"]}
{"id": "C66", "title": "A body limit of 0 refuses every request body", "statement": "As documented, a configured maximal body size of 0 discards every request with a body, and any other configured limit is the one which is used.", "quantifier": "all configurations", "why_tests_cant": "the space of configurations is unbounded and 0 is the documented special case", "anchors": ["config/config.go:Fill", "config/config.go:Body", "indi.go:App.Tune"]}
{"id": "C67", "title": "Content codings", "statement": "Encoding or decoding with a token uses exactly the coding registered last under this token or its historical alias; identity and the empty token pass data through unchanged; an unknown token is an error; what is encoded decodes to itself for every coding which is itself lossless.", "quantifier": "all histories of registrations, tokens and data", "why_tests_cant": "unbounded histories of registrations", "anchors": ["http/coding/codings.go:Manager"]}
{"id": "C68", "title": "Bundled middlewares do what they are documented to do", "statement": "Redirect answers requests to the configured path with a redirect to the configured target and passes every other request on unchanged; ServerHeader adds exactly one Server header to the response of the handler and changes nothing else; CustomContext hands the handler the request with the given context and nothing else changed.", "quantifier": "all requests, handlers and parameters of the middlewares", "why_tests_cant": "handlers and requests are arbitrary", "anchors": ["router/inbuilt/middleware/redirect.go:Redirect", "router/inbuilt/middleware/serverheader.go:ServerHeader", "router/inbuilt/middleware/customcontext.go:CustomContext"]}
{"id": "C69", "title": "Every malformed head is answered with the status its fault calls for", "statement": "A complete request head is either a well-formed head within the limits or has a fault; the fault alone, not the segmentation, decides which status is reported: 501 for an unknown method, 505 for an unknown version, 400 for other faults of the request line, of Content-Length and of line ends, 431 for too long names and values, and so on, the first fault in the order of the text counting. Whatever is sent, whether a head is accepted, refused, or not finished yet follows from the text alone.", "quantifier": "all heads with a fault, all limits, all segmentations", "why_tests_cant": "the combinations of faults, positions and segmentations are unbounded", "anchors": ["internal/protocol/http1/parser.go:Parser.Parse", "http/status/errors.go"]}
{"id": "C70", "title": "A request whose head is unfinished has no effect", "statement": "If a connection ends within a request head, no handler is called for this request and nothing is written about it; the requests before it are answered as usual.", "quantifier": "all sequences of requests, all proper prefixes of a head, all segmentations and ways in which a connection ends", "why_tests_cant": "every byte position is a possible crash point", "anchors": ["internal/protocol/http1/suit.go:Suit.serve", "internal/protocol/http1/parser.go:Parser.Parse"]}
{"id": "C71", "title": "A client can read the responses to its requests", "statement": "If the handlers answer with plain responses (a body, no attachment, no framing headers set by the application), what a client receives after sending any number of well-formed requests is exactly one response per request, in order, which an independent HTTP/1.x reader splits correctly; each carries the code, the headers and the body the handler gave to that request.", "quantifier": "all sequences of requests, segmentations, handlers and configurations", "why_tests_cant": "the composition of parser, body, router and serializer over unbounded pipelines", "anchors": ["internal/protocol/http1/suit.go:Suit.serve", "internal/protocol/http1/serializer.go:Serializer.Write"]}
{"id": "C72", "title": "Starting an application", "statement": "Serve binds all listeners in the order in which they were added and calls OnBind once for each; if one cannot be bound, Serve returns its error, no later one is tried, and nothing stays bound.", "quantifier": "all lists of listeners and all ways in which binding can fail", "why_tests_cant": "unbounded lists of listeners and failures of the operating system at any point", "anchors": ["indi.go:App.bind", "indi.go:App.Listen"]}
{"id": "C73", "title": "AutoHTTPS serves HTTPS with suitable certificates", "statement": "AutoHTTPS always adds a listener for the address, with certificates requested for the given domains, unless the address is the local host, for which a self-signed certificate is made.", "quantifier": "all addresses, domains and results of making certificates", "why_tests_cant": "all addresses and failures of the environment", "anchors": ["indi.go:App.AutoHTTPS", "indi.go:App.HTTPS", "internal/address/address.go"]}
{"id": "C74", "title": "Middlewares of the root are around everything", "statement": "Whatever a request asks for - a registered path, a path with parameters, a caught or unknown one, a wrong method, a malformed request - what is called for it is called inside of all middlewares added to the root of the router.", "quantifier": "all ways of building a router, all histories of requests and errors, all requests", "why_tests_cant": "routers, histories and requests are unbounded; a single path around an authenticating middleware is a hole", "anchors": ["router/inbuilt/inbuilt.go:Router.OnRequest", "router/inbuilt/inbuilt.go:Router.OnError", "router/inbuilt/middlewares.go"]}
{"id": "C75", "title": "Panicking handlers behind Recover", "statement": "If Recover is the first middleware of the root, no panic of a handler or middleware reaches the server, on any connection; the client gets a 500. A handler which does not panic is not affected.", "quantifier": "all routers, handlers, inputs and segmentations", "why_tests_cant": "a panic can occur at any point of any handler on any request of a connection", "anchors": ["router/inbuilt/middleware/recover.go:Recover", "router/inbuilt/inbuilt.go:runtimeRouter.onRequest"]}
{"id": "C76", "title": "One honest line per request in logs", "statement": "LogRequests leaves the answer alone and gives each logger exactly one line per answered request with the method, path and status code of this request, and nothing for closed connections; no path can add a line break or another control character to it.", "quantifier": "all handlers, loggers, requests and paths", "why_tests_cant": "paths are arbitrary bytes; forging lines needs a single escape", "anchors": ["router/inbuilt/middleware/logging.go:LogRequests", "router/inbuilt/mutator/requestlogger.go:RequestsLog", "http/path.go:Escape"]}
{"id": "C77", "title": "Method shorthands and resources", "statement": "A handler registered by Get, Head, Post, ... answers the requests with that method for that path. A handler registered on Resource(path) answers requests for exactly the path of the resource, inside of the middlewares of the router, of the resource and its own, in any order of the calls.", "quantifier": "all routers, resources and orders of registration", "why_tests_cant": "orders of registration are unbounded", "anchors": ["router/inbuilt/predicates.go", "router/inbuilt/resource.go:Resource"]}
{"id": "C78", "title": "The router does not crash", "statement": "A router which has been built without a panic answers every request a connection can bring, whatever its path, after every history of requests: the router itself never panics, with or without path parameters.", "quantifier": "all routers, histories, inputs of connections and segmentations", "why_tests_cant": "routers, paths and histories are unbounded; one crashing path takes the whole server down", "anchors": ["router/inbuilt/inbuilt.go:runtimeRouter.OnRequest", "router/inbuilt/internal/radix/tree.go", "internal/protocol/http1/parser.go:Parser.Parse"]}
{"id": "C79", "title": "Connections do not interfere", "statement": "Clients served at the same time by one application get what they would get alone: under every schedule of the connections, what is sent on a connection and what its handlers see depend on what this client sends only.", "quantifier": "any number of connections, all inputs and all interleavings of their processing", "why_tests_cant": "interleavings are unbounded, and tests run few of them", "anchors": ["indi.go:App.Listen", "internal/tcp/server.go:Server", "router/inbuilt/inbuilt.go:runtimeRouter", "internal/protocol/http1/suit.go:Suit.serve"]}
{"id": "C80", "title": "Building a response does not change the application's data", "statement": "Whatever calls of String, Bytes, Write, JSON, Error and Clear build a response, the strings and slices of the application which were passed keep their contents, and the body is what has been said.", "quantifier": "all sequences of calls, all contents, capacities and growth policies of append", "why_tests_cant": "which memory is shared depends on lengths, capacities and the order of calls; the damage shows elsewhere", "anchors": ["http/response.go:Response.String", "http/response.go:Response.Bytes", "http/response.go:Response.Write", "http/response.go:Response.TryJSON", "internal/response/fields.go:Fields.Clear"]}
{"id": "C81", "title": "Files are sent through a buffer of bounded size", "statement": "However large an attachment is, each piece of it is written from a buffer of FileBuffSize bytes; a file, which gives as much as asked for, fills it except for the last piece.", "quantifier": "all attachments, readers, sizes, configurations and earlier responses of the connection", "why_tests_cant": "sizes and behaviours of readers are unbounded", "anchors": ["internal/protocol/http1/serializer.go:Serializer.sendAttachment", "internal/protocol/http1/suit.go:Initialize", "config/config.go:HTTP.FileBuffSize"]}
{"id": "C82", "title": "JSON request bodies", "statement": "Request.JSON decodes exactly the body which was sent if Content-Type is absent or says application/json, returns errors of the body, and refuses all other types with 415 without reading the body.", "quantifier": "all requests, bodies, segmentations, values of Content-Type and decoders", "why_tests_cant": "segmentations and spellings of media types are unbounded", "anchors": ["http/request.go:Request.JSON", "http/mime/common.go:JSON"]}
{"id": "C83", "title": "A site answers with its pages", "statement": "An application registers pages (methods, paths without variables, handlers) with the built-in router. Each client, sending well-formed requests one after another in any segmentation, reads one response per request, in order: the one the page registered for this method and path gives for this request and its body; HEAD is answered like GET without the body; other methods get 405 with the allowed ones, other paths 404.", "quantifier": "all sites, all sequences of well-formed requests other than TRACE, all segmentations, all configurations", "why_tests_cant": "it depends on every layer at once: segmentation, parsing, routing, bodies, serialisation and what earlier requests have left behind", "anchors": ["indi.go:App.Serve", "internal/protocol/http1/suit.go:Suit.serve", "router/inbuilt/inbuilt.go:runtimeRouter.OnRequest", "internal/protocol/http1/parser.go:Parser.Parse", "internal/protocol/http1/serializer.go:Serializer.Write", "http/body.go"]}
{"id": "C84", "title": "What has been read is not overwritten", "statement": "All bytes of a connection pass through one buffer, and bodies are collected in another one, used for all its requests. Nevertheless whatever is read - by the request parser, or with Read, Retrieve, Bytes, String and Callback, in any order and for any number of requests - is what was sent; and strings got from String never change.", "quantifier": "all segmentations, sequences of calls, requests per connection, buffer sizes and growth policies of append", "why_tests_cant": "which memory is overwritten depends on the order of calls and on how the bytes arrive", "anchors": ["internal/tcp/client.go:client.Read", "internal/protocol/http1/body.go:Body", "internal/stash/reader.go:Reader.Read", "internal/protocol/http1/suit.go:Suit.serve"]}
{"id": "C85", "title": "A server with a self-signed certificate starts again", "statement": "With AutoHTTPS on a local host, whatever happened during earlier starts - failures of the file system and crashes at any point, also several applications at once -, a start which is not disturbed serves HTTPS with a certificate and its key; a pair which was made stays in use.", "quantifier": "all histories of starts, crash points, failures and interleavings of two starts", "why_tests_cant": "crash points and interleavings cannot be enumerated by tests, and generating writes two files in many steps", "anchors": ["https.go:generateSelfSignedCert", "https.go:tlsListener", "indi.go:App.AutoHTTPS"]}
{"id": "C86", "title": "Strings of a request keep their contents", "statement": "Path, parameters and headers of a request read as what was received as long as the request is handled, however it came in pieces, whatever the parser and decoders do in place and whatever earlier requests have left in memory; a Clone of the headers may be stored longer.", "quantifier": "all requests of a connection, all segmentations, buffer sizes and growth policies of append", "why_tests_cant": "which memory is shared depends on sizes and on the requests which come before and after", "anchors": ["internal/protocol/http1/parser.go:Parser.Parse", "internal/protocol/http1/parser.go:Parser.cleanup", "internal/keyvalue/storage.go:Storage.Clone", "internal/construct/constructors.go:Buffers"]}
{"id": "C87", "title": "Programs made with the built-in router, end to end", "statement": "For any program which uses the built-in router (routes with or without path variables, groups, middlewares, catchers, error handlers, aliases and mutators), a client which sends requests on a connection, pipelined and cut into segments in any way, reads exactly one response for each request, in order; the i-th one is what the handler chosen by the registrations for the i-th request (route, HEAD via GET, 405 handler, longest catcher, 404 handler, each inside its middlewares) answers to what this request says and to its body.", "quantifier": "all sequences of registrations which are accepted, all handlers which answer with responses saying how long they are and leave the connection alone, all sequences of well-formed requests without TRACE within the limits, all segmentations", "why_tests_cant": "The claim combines all registrations, all requests and all segmentations; tests call handlers of a few routers through the router, or send a few requests to a server with one handler.", "anchors": ["router/inbuilt/inbuilt.go:runtimeRouter.OnRequest", "router/inbuilt/groups.go:Router.Group", "router/inbuilt/middlewares.go:Router.Use", "router/inbuilt/catchers.go:Router.Catch", "internal/protocol/http1/suit.go:Suit.serve", "internal/protocol/http1/parser.go:Parser.Parse", "internal/protocol/http1/serializer.go:Serializer.Write"]}
{"id": "C88", "title": "A directory of static files, end to end", "statement": "A program which serves a directory under a prefix with Static: a client which sends any requests on a connection reads exactly one response for each, in order. A path below the prefix names the file with the rest of the path below the root: if it exists, the response is 200 with its content, its size and the type of its extension; it is 404 if it does not exist, is a directory or has two dots in a row, and 500 if the operating system tells nothing about it. Any other path is 404. HEAD gets the same without the content.", "quantifier": "all prefixes, roots, contents of the disk, all ways in which the operating system delivers files in pieces, all sequences of requests, all segmentations, all earlier requests", "why_tests_cant": "all disks, paths and sequences of requests; the response depends on what the operating system gives while the body is being written", "anchors": ["router/inbuilt/static.go:Router.Static", "internal/pathlib/pathlib.go:Path.Relative", "http/response.go:Response.TryFile", "http/mime/exts.go:Extension", "internal/protocol/http1/serializer.go:Serializer.sendAttachment", "router/inbuilt/catchers.go:Router.Catch"]}
{"id": "C89", "title": "Many clients at once, end to end", "statement": "For any program which uses the built-in router, any number of clients are served at the same time by the same router. A client which sends requests other than TRACE reads exactly what it would read if it was alone: one response for each of its requests, in order, the i-th one being what the handler chosen by the registrations answers to the i-th request and its body; at whatever moments the calls of the router for other clients are made, and whatever they are about.", "quantifier": "all programs, all sequences of requests of this client, all segmentations, all moments at which other goroutines have used the shared router, and all requests they have used it for", "why_tests_cant": "interleavings of goroutines, and what other clients send, are unbounded", "anchors": ["indi.go:App.Listen", "router/inbuilt/inbuilt.go:runtimeRouter.OnRequest", "router/inbuilt/inbuilt.go:runtimeRouter.onError", "router/inbuilt/trace.go", "internal/protocol/http1/suit.go:Suit.serve"]}
{"id": "C90", "title": "The server and a strict reader agree about where requests end", "statement": "A proxy which reads HTTP/1.x strictly, and the server behind it, split a stream of bytes into the same requests: the i-th request handlers are called with is the i-th one the proxy has seen, with the same method, path, fields and body, and there are no others (no request smuggling). Requests which the proxy must refuse, because it is not clear where they end, are refused by the server, too.", "quantifier": "all streams of bytes, all segmentations, all configurations, all routers", "why_tests_cant": "the property relates two readers over all streams; tests try streams someone has thought of", "anchors": ["internal/protocol/http1/parser.go:Parser.Parse", "internal/protocol/http1/parser.go:parseEncodingString", "internal/protocol/http1/body.go:Body.Init", "internal/protocol/http1/suit.go:Suit.serve"]}
{"id": "C91", "title": "A request whose body cannot be read to its end is the last one of its connection", "statement": "After any sequence of well-formed requests, a request with a well-formed head whose declared length exceeds the body limit (whatever bytes follow the head), or whose sized or chunked body is cut off by the end of the connection: its handler is called once, whatever it does with the body its answer is written, the router is told of the closing, and no byte after the head is ever taken for another request.", "quantifier": "all configurations with a body limit below 2^64, request sequences, heads, bodies, cut points, segmentations, handlers", "why_tests_cant": "request smuggling depends on the interplay of body limits, what the handler read and the discarding between requests", "anchors": ["internal/protocol/http1/suit.go:Suit.ServeOnce", "internal/protocol/http1/body.go:body", "http/request.go:Request.Clear", "http/body.go:Body.Discard"]}
{"id": "C92", "title": "One router may serve several virtual hosts", "statement": "A router given to several virtual hosts (or served again after having been served) answers requests for each of them as it does when it is the only one: initializing it again neither fails nor changes what it does, and does not change routers which have been returned before.", "quantifier": "all sequences of registrations, all numbers of hosts, all requests and errors", "why_tests_cant": "Whether initializing twice is harmless depends on all registrations (groups, middlewares, catchers, error handlers); tests initialize each router once.", "anchors": ["router/inbuilt/inbuilt.go:Router.Initialize", "router/inbuilt/groups.go:Router.prepare", "router/inbuilt/registrar.go:registrar.Merge", "router/virtual/virtual.go:Router.Initialize"]}
{"id": "C93", "title": "Whatever a client sends, a connection is a series of requests and one end", "statement": "Whatever bytes a client sends on a connection, they are well-formed requests within the limits, one after another, and then one thing which is not: an unfinished head, a malformed or over-limit head (a too long request line included), a head which crashes the server (see C03), a head whose body is cut off or too large, a head with a malformed chunked body, or something outside of what is described (names with CR or LF, request lines which are too long only if the method is counted). There is one way only to read the bytes so. The handler is called once for each of these requests, in their order and with their content, the answers are written in this order, and then the end is dealt with as its kind asks: nothing is done, an error is reported and answered once, or the request is handled and the connection ends.", "quantifier": "all byte streams, all segmentations, all routers, handlers and configurations, all results of writes", "why_tests_cant": "nothing is assumed about the bytes; the streams, their segmentations and the handlers' behaviours are unbounded", "anchors": ["internal/protocol/http1/suit.go:Suit.serve", "internal/protocol/http1/parser.go:Parser.Parse", "internal/protocol/http1/body.go:Body.Retrieve", "http/request.go:Request.Clear"]}
{"id": "C94", "title": "Files which are opened for responses are closed", "statement": "Whatever a handler does with its response - any methods, any number of files, starting anew with Respond -, every file which was opened for it by File is closed when the response has been sent.", "quantifier": "all sequences of calls of the methods of a response, all answers of the file system, all earlier responses, all requests and connections", "why_tests_cant": "leaks depend on the sequence of calls, the answers of the file system, the method and write errors; they show only after many requests", "anchors": ["http/response.go:Response.TryFile", "http/response.go:Response.File", "internal/protocol/http1/serializer.go:Serializer.sendAttachment", "internal/types/attachment.go:Attachment.Close", "router/inbuilt/static.go:Router.Static"]}
{"id": "C95", "title": "Handlers may return nil", "statement": "The server takes nil, returned by a handler, for an empty response. This holds behind all middlewares which come with the router: returning nil has the same effect as returning request.Respond().", "quantifier": "all handlers, requests and lists of bundled middlewares", "why_tests_cant": "the lists of middlewares are unbounded, and whether one of them uses the response shows only for handlers which return nil", "anchors": ["internal/protocol/http1/suit.go:notNil", "router/inbuilt/middlewares.go:compose", "router/inbuilt/middleware/logging.go:LogRequests", "router/inbuilt/middleware/serverheader.go:ServerHeader", "router/inbuilt/middleware/recover.go:Recover"]}
{"id": "C96", "title": "A request whose chunked body is malformed or longer than allowed is the last one of its connection", "statement": "After any sequence of well-formed requests, a request with a well-formed head which announces the chunked coding, followed by bytes which are not such a coding, or which code (or begin to code) a body longer than allowed: its handler is called once, its answer is written, and no byte after the head is ever taken for another request, whatever the handler does with the body.", "quantifier": "all configurations with a body limit below 2^64, request sequences, heads, bodies, segmentations, handlers and decoders of the chunked coding", "why_tests_cant": "what is taken for the next request depends on what the handler has read, on where segments end and on what the body contains; tests send a too long body and look at the error", "anchors": ["internal/protocol/http1/body.go:chunkedBodyReader.read", "internal/protocol/http1/body.go:Body.Discard", "internal/protocol/http1/suit.go:Suit.ServeOnce", "http/request.go:Request.Clear"]}
{"id": "C97", "title": "Bytes which come together with the end of the connection count", "statement": "What a client has sent is processed even if the read which delivers it also reports an error, in particular io.EOF, as readers may do and connections with TLS do when the client closes its side right after the request: requests are answered, and bodies delivered.", "quantifier": "all servers, request sequences, segmentations, all bytes which come with the error, all errors", "why_tests_cant": "whether data and the error come in one read depends on the timing of the network; tests have connections which report errors separately", "anchors": ["internal/tcp/client.go:client.Read", "internal/protocol/http1/suit.go:Suit.serve", "internal/protocol/http1/body.go:plainBodyReader.read", "internal/protocol/http1/body.go:chunkedBodyReader.read"]}
{"id": "C98", "title": "The read timeout limits the silence of a client, and nothing else", "statement": "A client which is never silent for as long as the read timeout is not disconnected before it has sent its requests: each of them is served, however long all of them take, however slow handlers are and however the bytes are grouped into reads. A read fails exactly if nothing has come by its deadline, at the deadline, and loses nothing; when a client falls silent, the connection is ended by it.", "quantifier": "all configurations, times of arrival of all bytes, durations of handlers, request sequences, segmentations", "why_tests_cant": "real time: tests cannot wait for all combinations of arrival times and durations", "anchors": ["internal/tcp/client.go:client.Read", "internal/construct/constructors.go:Client", "config/config.go:TCP", "internal/protocol/http1/suit.go:Suit.serve"]}
{"id": "C99", "title": "Programs behind virtual hosts, end to end", "statement": "Several programs are registered for hosts, one perhaps as the default one. Whatever requests a client sends one after another on a connection, for whichever hosts, each gets one response, in order: the answer of the program its Host is for to what the request says, not depending on the hosts of the other requests; or 400 without a Host (if there is no default program) or with several of them, 421 for a Host nobody is registered for.", "quantifier": "all sets of programs, hosts and default programs, all handlers, request sequences, segmentations and configurations", "why_tests_cant": "the programs share one connection, one request object and one parser; the numbers of programs, hosts and requests are unbounded", "anchors": ["router/virtual/virtual.go:Router.Host", "router/virtual/virtual.go:runtimeRouter.OnRequest", "router/inbuilt/inbuilt.go:runtimeRouter.OnRequest", "internal/protocol/http1/suit.go:Suit.serve"]}
{"id": "C100", "title": "Applications of two functions, end to end", "statement": "An application made of a handler for requests and a handler for errors (router/simple): each request goes to the handler as it was sent, each malformed head to the handler for errors, which finds the error in the request; what the client reads is, in order, what these functions return, and nothing else.", "quantifier": "all pairs of functions within the stated conduct, all sequences of requests followed by any malformed or over-limit head, all segmentations and configurations", "why_tests_cant": "the functions, the number of requests, the malformed heads and the segmentations are unbounded; the error travels through the request object shared by all requests of the connection", "anchors": ["router/simple/simple.go:Router.OnRequest", "router/simple/simple.go:Router.OnError", "internal/protocol/http1/suit.go:Suit.serve"]}
{"id": "C101", "title": "Whatever a client sends, it can read what it gets", "statement": "Whatever bytes a client sends on a connection, what comes back is a sequence of complete HTTP/1.x responses, which a reader knowing only the methods it has sent splits correctly: one for each well-formed request (after an interim one, if the request asks for another version of the protocol), in order, up to the first one which closes the connection; then, if a malformed head or a request with an unfinished body follows, one for this; and nothing else.", "quantifier": "all byte streams, segmentations, configurations, and handlers whose responses say how long they are", "why_tests_cant": "all streams include all combinations of well-formed requests with malformed, over-limit, truncated or unfinished ones; the framing of each response decides where the client looks for the next one", "anchors": ["internal/protocol/http1/suit.go:Suit.serve", "internal/protocol/http1/parser.go:Parser.Parse", "internal/protocol/http1/serializer.go:serializer.Write", "internal/protocol/http1/body.go:body.Read"]}
{"id": "C102", "title": "The example programs do what they show", "statement": "The example programs which come with the project, seen by their clients: helloworld greets whoever asks for /, dynroute answers with the name in the path, helloworld_norouter answers every request and rejects malformed ones, middlewares runs its middlewares in the order of its groups, connhijack logs all bytes which come after the request and writes nothing, combined serves its files and its handlers, recovering from the panic of one; requests for other paths and methods are refused.", "quantifier": "all sequences of well-formed requests (for one program, followed by any malformed head; for another, by any bytes), all segmentations", "why_tests_cant": "requests, paths, names and segmentations are unbounded; the examples have no tests at all", "anchors": ["examples/helloworld/helloworld.go:MyHandler", "examples/dynroute/dynroute.go:MyDynamicHandler", "examples/helloworld_norouter/helloworld.go:MyHandler", "examples/middlewares/middlewares.go:main", "examples/connhijack/connhijack.go:MyHandler", "examples/combined/combined.go:main"]}
{"id": "C103", "title": "What is sent is what was set on the response which is returned", "statement": "A handler and its middlewares may call Respond and NewResponse any number of times and call methods on all the responses they have got, in any order. If the response returned comes from NewResponse, exactly the methods called on it count. If it comes from Respond, exactly those called since the last Respond count, on whichever response of the request; nothing set before, or for an earlier request, is sent.", "quantifier": "all sequences of calls of Respond, NewResponse and methods of the responses, and all states an earlier request has left", "why_tests_cant": "all responses of a request are one object, also shared with the requests before: tests build one response per request", "anchors": ["http/request.go:Request.Respond", "http/response.go:NewResponse", "http/response.go:Response.Clear", "internal/response/fields.go:Fields.Clear"]}
{"id": "C104", "title": "Every router which can be built does one known thing for every request", "statement": "Whatever routes, groups, middlewares, catchers, error handlers and mutators are registered: the router can be built exactly if every route's text can be read as a template, no route and no catcher is registered twice, and no two routes differ in the name of a variable where their beginnings agree. If it can, then for every request the handler called is determined: the one of the route the path is found under, the one of GET for HEAD, the router's echo for TRACE, the error handler for 405 or 404, or the catcher with the longest prefix. The only request it cannot handle is one whose path is empty when it arrives. Two routes with texts which mean the same are not refused if they are spelled differently.", "quantifier": "all sequences of registrations with all texts of routes, all requests, and all orders in which maps are visited", "why_tests_cant": "texts of routes, their combinations, paths and map orders are unbounded; the result for routes with the same meaning depends on the order of a map", "anchors": ["router/inbuilt/inbuilt.go:runtimeRouter.onRequest", "router/inbuilt/registrar.go:registrar.AsRadixTree", "router/inbuilt/registrar.go:registrar.AsMap", "router/inbuilt/internal/radix/tree.go:Node.Insert", "router/inbuilt/internal/radix/template.go:Parse"]}
{"id": "C105", "title": "What an error handler sees of a refused head", "statement": "If a request is refused because of a fault in its head, the error handler is called with the error for that fault and with a request which has exactly the headers of the lines before the one with the fault, in order, the method, path, query and version if the request line is not the faulty one, and what these headers mean (content type, encodings, chunking, upgrade). Nothing of the lines after the fault is in it, no header of an earlier request on the connection, no route variable and no context value. Where the client cut the head into segments does not matter.", "quantifier": "all malformed heads with clean names of headers, all requests before them on the connection, all cuts into segments, all routers and handlers which answer", "why_tests_cant": "where the fault is, what comes before and after it and what earlier requests left in the shared request object are unbounded", "anchors": ["internal/protocol/http1/parser.go:Parser.Parse", "internal/protocol/http1/suit.go:Suit.serve", "http/request.go:Request.Clear"]}
{"id": "C106", "title": "AutoHTTPS requests certificates for the domains it was given, and clients accept what it serves", "statement": "AutoHTTPS for an address with a host name makes a TLS listener, whatever the state of the file system. Certificates are requested from the authority for the domains given, however clients spell them, and for no others; they are kept in the cache directory of the user if that exists or can be made. The listener can prove to the authority that it serves these domains. A self-signed certificate, for localhost and IP addresses, is for the host it is made for, and is not used after it has expired.", "quantifier": "all addresses with host names, all domains, all names clients ask for, all environments and states of the file system, all histories of starts", "why_tests_cant": "names, environments and times are unbounded, and the other side is an authority on the network and a client years later", "anchors": ["indi.go:App.AutoHTTPS", "https.go:autoTLSListener", "https.go:cacheDir", "https.go:homeDir", "https.go:mkdirIfNotExists", "https.go:generateSelfSignedCert"]}
{"id": "C107", "title": "Whatever comes on a connection: one call after another, and one complete answer for each", "statement": "Whatever bytes come on a connection (well-formed or not, in whatever pieces, with whatever errors of reading), and whatever the handlers do: the router is called with one request after another, each in a supported version and each finding the router as the calls before have left it; a call with an error is the last one and happens once, and nothing is called after a panic or a hijacked connection. If handlers and error handlers answer with responses which say how long they are, and writing works, then what is written is one complete answer for each of these calls, in order, in the right version and with the code, header fields and body the handler has set, which an independent reader splits correctly; nothing else is written, but the answer of the error handler to a refused head. (One refused for its version has no version itself, see C101.)", "quantifier": "all byte streams, all cuts into pieces, all errors of reading, all routers and handlers (for the second part: those whose responses delimit themselves), all configurations", "why_tests_cant": "the bytes are arbitrary, also those of which the outcome depends on how they are cut into pieces", "anchors": ["internal/protocol/http1/suit.go:Suit.serve", "internal/protocol/http1/parser.go:Parser.Parse", "internal/protocol/http1/serializer.go:Serializer.Write", "http/serve/http1.go:HTTP1"]}
{"id": "C108", "title": "Stopping the application from its own callbacks", "statement": "Stop and GracefulStop do not block (their documentation says so), so handlers and the hooks OnStart and OnStop may call them: the call returns, the application is stopped, OnStop is called once and Serve returns. (This holds only of the first handler which does so while the application runs.)", "quantifier": "all interleavings of the application, its listeners, connections, handlers and hooks, all numbers of listeners and connections, all moments of the calls", "why_tests_cant": "whether a call ever returns depends on all schedules; that it never does cannot be observed in finite time", "anchors": ["indi.go:App.Stop", "indi.go:App.GracefulStop", "indi.go:App.run", "indi.go:App.OnStart", "indi.go:App.OnStop", "internal/tcp/server.go:Server.Start", "internal/tcp/server.go:StopAll"]}
{"id": "C109", "title": "A client which cannot be written to any more", "statement": "Whichever writes on a connection fail: a write which fails is the last one, the router is then told that the connection is closed (unless it was the answer to a refused head), and the connection ends. What was passed to the connection up to then, the requests the handlers were called with and what they answered are the beginning of what would have been if no write had failed. So a client which stops reading gets complete answers and at most the beginning of one more, and nobody's handler runs differently because of it.", "quantifier": "all byte streams, all cuts into pieces, all failures of reads and writes, all routers and handlers which do not hijack the connection, all configurations", "why_tests_cant": "the moment at which a write fails is arbitrary: in the middle of any response, of any chunk of an attachment, after any number of requests", "anchors": ["internal/protocol/http1/suit.go:Suit.serve", "internal/protocol/http1/serializer.go:Serializer.Write", "internal/protocol/http1/serializer.go:Serializer.sendAttachment", "internal/protocol/http1/serializer.go:Serializer.writeChunkedBody", "internal/protocol/http1/serializer.go:Serializer.writePlainBody", "internal/tcp/client.go:client.Write"]}
{"id": "C110", "title": "How the bytes of requests are cut into pieces makes no difference", "statement": "Two clients send the same well-formed requests one after another, but their bytes come in different pieces: all at once, byte by byte, or cut anywhere, also inside of a body. If what the handlers answer is determined by what the requests say and by their whole bodies, then the server writes the same bytes to both clients, by the same writes, and ends serving for the same reason. This holds in particular of handlers which read the body with Bytes, called directly or through the built-in router.", "quantifier": "all sequences of well-formed requests, all pairs of cuts into pieces, all configurations, all programs of the built-in router with such handlers, all results of writing", "why_tests_cant": "a property of pairs of runs: the pairs of cuts of a stream are unbounded, and every cut takes another way through the parser, the reading of bodies and the buffers kept between requests", "anchors": ["internal/protocol/http1/suit.go:Suit.serve", "internal/protocol/http1/parser.go:Parser.Parse", "internal/protocol/http1/body.go:body.Read", "http/body.go:Body.Bytes", "router/inbuilt/inbuilt.go:runtimeRouter.onRequest"]}
{"id": "C111", "title": "A request is answered on a used connection as on a new one", "statement": "A client which sends many requests on one connection gets, for each of them, what it would have got on a connection opened for this request only, one answer after another, until a request after which the server closes the connection; and serving ends as after that request alone. So keeping connections alive can be observed by its speed only. This is meant for handlers whose answers are determined by the request. (It is false of default headers: one set by a response is left out of all later ones on the connection.)", "quantifier": "all sequences of well-formed requests, all cuts into pieces, all configurations, all programs of the built-in router with such handlers", "why_tests_cant": "a property of many runs, over all histories of a connection: buffers, serializer, parser, request object and body are used again for each request", "anchors": ["internal/protocol/http1/suit.go:Suit.serve", "internal/protocol/http1/serializer.go:Serializer.Write", "internal/protocol/http1/serializer.go:Serializer.clear", "internal/protocol/http1/serializer.go:defaultHeaders", "http/request.go:Request.Clear", "router/inbuilt/inbuilt.go:runtimeRouter.onRequest"]}
{"id": "C112", "title": "The answer to HEAD is the head of the answer to the same GET request", "statement": "Two clients send the same well-formed requests, and then one of them sends a GET request, and the other one the same with HEAD. If the handlers answer by what the requests say and do not look at whether the method is GET or HEAD, and there is no handler for HEAD, then, unless the connections end before, the second client gets the same bytes up to its last request, and then a complete head, without anything after it, with which the answer to the GET request begins. So a client learns from HEAD exactly what it would have learnt from the head for GET, Content-Length included.", "quantifier": "all sequences of well-formed requests before it, all GET requests, all cuts into pieces, all configurations, all handlers which do not look at the method, all programs of the built-in router without handlers for HEAD, all sizes of bodies and attachments", "why_tests_cant": "a property of pairs of runs over all histories, requests and responses; a head which differs for one kind of response only, or one byte of a body after a head, desynchronises the connection", "anchors": ["router/inbuilt/inbuilt.go:getHandler", "internal/protocol/http1/serializer.go:Serializer.Write", "internal/protocol/http1/serializer.go:Serializer.sendAttachment", "internal/protocol/http1/suit.go:Suit.serve"]}
{"id": "C113", "title": "How a request is written makes no difference", "statement": "Two clients send requests which say the same: the same methods, paths, queries, versions, header fields, lengths and bodies. But they write them in different ways: with CRLF or LF at the ends of lines, with any number of spaces after colons, with other characters of the path escaped, with lengths written as 5 or 05, with bodies cut into other chunks, and cut into pieces anywhere. If what the handlers answer is determined by what requests say and by their whole bodies, the server writes the same bytes to both clients, and ends serving for the same reason.", "quantifier": "all sequences of well-formed requests, all pairs of ways to write them, all cuts into pieces, all configurations, all programs of the built-in router with such handlers, also behind virtual hosts", "why_tests_cant": "a property of pairs of runs: every way to write a request takes another way through the parser, the decoder and the reader of bodies; there are unboundedly many", "anchors": ["internal/protocol/http1/parser.go:Parser.Parse", "internal/uridecode/decoder.go:Decode", "internal/protocol/http1/body.go:body.Read", "internal/protocol/http1/suit.go:Suit.serve", "router/inbuilt/inbuilt.go:runtimeRouter.onRequest"]}
{"id": "C114", "title": "The letter case of the names of headers makes no difference", "statement": "Two clients send the same requests, but write the names of headers in different letter cases (Content-Length, CONTENT-LENGTH, host, Host). Looking up a header gives the same for both, in whichever case the name which is looked up is written. If the handlers do not look at the case of names, the server writes the same bytes to both clients and ends serving for the same reason: lengths, encodings, Connection, Upgrade and Host are understood in every case. (The answer to TRACE is left out: it repeats the names as they were sent.)", "quantifier": "all sequences of well-formed requests, all pairs of ways to write the names in them, all cuts into pieces, all configurations, all handlers which do not look at the case of names, all programs of the built-in router with such handlers, also behind virtual hosts; all storages and keys for lookups", "why_tests_cant": "a property of pairs of runs; a header with n letters can be written in 2^n ways, and each header is compared somewhere else: in the parser, in the storage, in the virtual router", "anchors": ["internal/protocol/http1/parser.go:Parser.Parse", "internal/keyvalue/storage.go:Storage.Get", "internal/keyvalue/storage.go:Storage.Values", "internal/keyvalue/storage.go:Storage.Has", "router/virtual/virtual.go:runtimeRouter.getRouter", "router/inbuilt/inbuilt.go:runtimeRouter.onRequest"]}
{"id": "C115", "title": "Cookies are what was said about them while building them", "statement": "However a program builds cookies - Build, then Path, Domain, Expires, MaxAge, SameSite, Secure, HttpOnly in any order, some of them repeatedly, several cookies from a common beginning - each cookie has the name and the value it began with, each attribute is what was said last about it on the way to this cookie, and the others are unset; building one never changes another. A client which is sent these cookies finds exactly this in the Set-Cookie fields. (Except for Max-Age, which is sent under a name clients do not know.)", "quantifier": "all programs with any number of builders and calls, all names, values and attributes which fit the syntax, all responses without attachment", "why_tests_cant": "all trees of builders and all orders of calls", "anchors": ["http/cookie/cookie.go:New", "http/cookie/cookie.go:Build", "http/cookie/cookie.go:Builder", "http/response.go:Response.Cookie", "internal/protocol/http1/serializer.go:renderCookie"]}
{"id": "C116", "title": "The order of registrations makes no difference", "statement": "Two programs make the same calls on a router in different orders: routes and catchers in any order, before or after the middlewares which are around them and the error handlers, groups used later or earlier. (Groups are made in the same order and before they are used; the middlewares of each router, its mutators and aliases, and the error handlers keep their order among themselves. No two catchers have the same prefix, and no two routes are taken for the same template.) If one of them can be built, so can the other one. Then both call the same handler for every request, whatever they have served before, with requests which differ at most in the order of the allowed methods or in values left behind while no route was found. Without variables in the routes nothing differs: for the same client, both read the same, call the same handlers with the same requests, write the same bytes and end the connection in the same way.", "quantifier": "all programs, all reorderings, all orders in which Go visits maps, all histories of requests, all clients and configurations", "why_tests_cant": "a property of pairs of programs; n registrations have n! orders, and the order in which a radix tree or the middlewares of groups are built is where such differences come from", "anchors": ["router/inbuilt/route.go:Router.Route", "router/inbuilt/middlewares.go:Router.Use", "router/inbuilt/middlewares.go:Router.applyMiddlewares", "router/inbuilt/groups.go:Router.Group", "router/inbuilt/groups.go:Router.prepare", "router/inbuilt/catchers.go:Router.Catch", "router/inbuilt/registrar.go:registrar.Add", "router/inbuilt/registrar.go:registrar.Merge", "router/inbuilt/inbuilt.go:Router.Initialize", "router/inbuilt/internal/radix/tree.go:Node.Insert"]}
{"id": "C117", "title": "A new route changes nothing for other requests", "statement": "When routes are added to a program, the router does for requests for other paths exactly what it did before: the same handler is called with the same request, the same catcher, the same 404 and 405 answers; errors are handled as before; and a client of a server whose requests are for other paths is served the same bytes. It is false for routes with variables: with a new route /users/admin a request for /users/admin/posts, which /users/{id}/posts used to answer, gets 404; and the first route with a variable takes the request for / away from a catcher for everything. It holds with variables for requests whose path goes another way than the new routes.", "quantifier": "all programs, all lists of routes added to them, all histories of requests served, all requests for other paths, all errors, all clients", "why_tests_cant": "a test compares a few programs and paths, while the claim is about every program, every addition and every other request", "anchors": ["router/inbuilt/route.go:Router.Route", "router/inbuilt/registrar.go:registrar.Add", "router/inbuilt/internal/radix/tree.go:Node.Match", "router/inbuilt/inbuilt.go:runtimeRouter.onRequest"]}
{"id": "C118", "title": "Additions concern only what they are about", "statement": "A catcher added to a program changes only the answers to requests for which no route is found and whose path begins with its prefix, and only errors 404 among the errors. An error handler added for certain status codes changes only how errors with these codes are handled. Middlewares added to a group change only what is done for routes and catchers of this group and of groups nested in it. A virtual host added changes only the answers to requests for this host, and requests for it do not change how later requests for other hosts are answered. Everything else is handled by the same handlers as before. (TRACE requests answered by the router itself repeat earlier requests, see C42, and are left aside; no two catchers have the same prefix and no two routes with variables are taken for the same template.)", "quantifier": "all programs, all catchers, error handlers, middlewares and hosts added, all histories of requests served before, all requests and errors", "why_tests_cant": "a test compares a few programs and requests, while the claim is about every program, every addition and every request it is not about", "anchors": ["router/inbuilt/catchers.go:Router.Catch", "router/inbuilt/route.go:Router.RouteError", "router/inbuilt/middlewares.go:Router.Use", "router/inbuilt/groups.go:prepare", "router/virtual/virtual.go:Router.Host", "router/virtual/virtual.go:runtimeRouter.getRouter"]}
