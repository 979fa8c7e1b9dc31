import Verif.Props.Router
import Verif.Model.Serve
import Verif.Model.Recover
import Verif.Model.Middleware
import Verif.Model.Files
import Verif.Spec.Chunked

/-!
The tests of indigo_test.go which are about one connection, on the model: the router of the tests behind the HTTP/1 server, bytes in,
bytes out. These are tests of the model, not proofs of anything; see DESIGN.md. The requests are those of Go's client, with the headers
in some order.
-/

namespace Indigo.Conformance.EndToEnd
open Indigo.Router Indigo.Spec Indigo.Spec.Router Indigo.Props

local notation "F" => Fold.ascii

/-- The messages of errors. -/
def text : GoErr → Bytes
  | .http e => e.Message
  | _ => b!"error"

/-- internal/httptest/dump.go:9-54 `Dump`, as a response. -/
def dump : Handler Act := fun req => do
  match ← Act.call .bytes with
  | .whole d none =>
    pure (Fields.new.bytes (req.Method.toBytes ++ b!" " ++ req.Path ++ b!" HTTP/1.1\r\n" ++
      req.Headers.pairs.flatMap (fun h => h.Key ++ b!": " ++ h.Value ++ b!"\r\n") ++ b!"Content-Length: " ++
      decBytes req.ContentLength.toNat ++ b!"\r\n\r\n" ++ d.getD []), req)
  | _ => pure (Fields.new.code 500, req)

/-- indigo_test.go: tests/index.html (shortened) is the only file there is. -/
def disk (path : Bytes) : Files.Opened :=
  if path = b!"tests/index.html" then .file [(b!"<html>Test page</html>", none)] 22 else .missing

/-- indigo_test.go:59-126 `getInbuiltRouter`. -/
def calls : List (Op Act) := [
  .use 0 [Middleware.recover text id],
  .use 0 [Middleware.customContext [b!"egg"]],
  .group 0 b!"/",
  .route 1 .GET [] dump [],
  .route 1 .POST [] dump [],
  .route 0 .GET b!"/file/{name}" (fun req =>
    pure (Fields.new.file text (Files.answer disk (b!"tests/" ++ req.Params.value F b!"name")), req)) [],
  .route 0 .POST b!"/body-reader" (fun req => do
    match ← Act.call .bytes with
    | .whole d none => pure (Fields.new.bytes (d.getD []), req)
    | _ => pure (Fields.new.code 500, req)) [],
  .route 0 .GET b!"/query" (fun req =>
    match req.Query.unwrap with
    | (q, ps, none) => pure (Fields.new.bytes (ps.flatMap (fun p => p.Key ++ b!":" ++ p.Value ++ b!".")), { req with Query := q })
    | (q, _, some e) => pure (Fields.new.error text (some (.http e)) [], { req with Query := q })) [],
  .route 0 .GET b!"/hijack" (fun req => .hijack (fun _ => .write b!"j" (fun _ => .ret (Fields.new, req)))) [],
  .route 0 .GET b!"/ctx-value" (fun req => pure (Fields.new.bytes (req.Ctx.headD []), req)) [],
  .route 0 .GET b!"/panic" (fun _ => .panic) [Middleware.recover text id],
  .route 0 .GET b!"/json" (fun req =>
    pure (Fields.new.json text ((req.Headers.values F b!"fields").1.flatMap (fun k =>
      (((req.Headers.values F k).1.intersperse b!", ").flatten))) none, req)) [],
  .route 0 .GET b!"/custom-error-with-code" (fun req =>
    pure (Fields.new.error text (some (.http Status.ErrTeapot)) [Status.Teapot], req)) []]

/-- What the server writes to a client which sends these segments and then closes (or waits until the read deadline). -/
def talk (parts : List Bytes) : Option (Bytes × Option Serve.Ended) :=
  (make F text sampleEnv calls).map (fun rt =>
    let r := Serve.serve ⟨F, refParser, 2 ^ 40, Router.impl F .panic⟩
      (Serve.newConn refParser Config.default 0 [] rt { conn := parts.map (·, none) })
    (r.1.client.written.flatten, r.2))

/-- indigo_test.go:36-41 `getHeaders`. -/
def hdrs : Bytes := b!"Host: localhost:16100\r\nUser-Agent: Go-http-client/1.1\r\nAccept-Encoding: gzip\r\n"

/-- "root get" -/
example : talk [b!"GET / HTTP/1.1\r\n" ++ hdrs ++ b!"\r\n"] = some (b!"HTTP/1.1 200 OK\r\nAccept-Encodings: identity\r\nContent-Type: text/html\r\nContent-Length: 115\r\n\r\nGET / HTTP/1.1\r\nHost: localhost:16100\r\nUser-Agent: Go-http-client/1.1\r\nAccept-Encoding: gzip\r\nContent-Length: 0\r\n\r\n", some .readFailed) := by decide +kernel

/-- "root get with body" -/
example : talk [b!"GET / HTTP/1.1\r\n" ++ hdrs ++ b!"Content-Length: 13\r\n\r\nHello, world!"] = some (b!"HTTP/1.1 200 OK\r\nAccept-Encodings: identity\r\nContent-Type: text/html\r\nContent-Length: 129\r\n\r\nGET / HTTP/1.1\r\nHost: localhost:16100\r\nUser-Agent: Go-http-client/1.1\r\nAccept-Encoding: gzip\r\nContent-Length: 13\r\n\r\nHello, world!", some .readFailed) := by decide +kernel

/-- "root post" -/
example : talk [b!"POST / HTTP/1.1\r\n" ++ hdrs ++ b!"Content-Type: text/html\r\nContent-Length: 13\r\n\r\nHello, world!"] = some (b!"HTTP/1.1 200 OK\r\nAccept-Encodings: identity\r\nContent-Type: text/html\r\nContent-Length: 155\r\n\r\nPOST / HTTP/1.1\r\nHost: localhost:16100\r\nUser-Agent: Go-http-client/1.1\r\nAccept-Encoding: gzip\r\nContent-Type: text/html\r\nContent-Length: 13\r\n\r\nHello, world!", some .readFailed) := by decide +kernel

/-- "body reader" -/
example : talk [b!"POST /body-reader HTTP/1.1\r\n" ++ hdrs ++ b!"Content-Length: 13\r\n\r\nHello, world!"] = some (b!"HTTP/1.1 200 OK\r\nAccept-Encodings: identity\r\nContent-Type: text/html\r\nContent-Length: 13\r\n\r\nHello, world!", some .readFailed) := by decide +kernel

/-- "root head" -/
example : talk [b!"HEAD / HTTP/1.1\r\n" ++ hdrs ++ b!"\r\n"] = some (b!"HTTP/1.1 200 OK\r\nAccept-Encodings: identity\r\nContent-Type: text/html\r\nContent-Length: 116\r\n\r\n", some .readFailed) := by decide +kernel

/-- "error with custom code" -/
example : talk [b!"GET /custom-error-with-code HTTP/1.1\r\n" ++ hdrs ++ b!"\r\n"] = some (b!"HTTP/1.1 418 I'm a teapot\r\nAccept-Encodings: identity\r\nContent-Type: text/html\r\nContent-Length: 0\r\n\r\n", some .readFailed) := by decide +kernel

/-- "with query" -/
example : talk [b!"GET /query?hello=world&%20foo=+bar HTTP/1.1\r\n" ++ hdrs ++ b!"\r\n"] = some (b!"HTTP/1.1 200 OK\r\nAccept-Encodings: identity\r\nContent-Type: text/html\r\nContent-Length: 22\r\n\r\nhello:world. foo: bar.", some .readFailed) := by decide +kernel

/-- "hijacking" -/
example : talk [b!"GET /hijack HTTP/1.1\r\n\r\n"] = some (b!"j", some .hijacked) := by decide +kernel

/-- "request existing file" -/
example : talk [b!"GET /file/index.html HTTP/1.1\r\n" ++ hdrs ++ b!"\r\n"] = some (b!"HTTP/1.1 200 OK\r\nAccept-Encodings: identity\r\nContent-Type: text/html; charset=utf-8\r\nContent-Length: 22\r\n\r\n<html>Test page</html>", some .readFailed) := by decide +kernel

/-- "request non-existing file" -/
example : talk [b!"GET /file/doesntexists.html HTTP/1.1\r\n" ++ hdrs ++ b!"\r\n"] = some (b!"HTTP/1.1 404 Not Found\r\nAccept-Encodings: identity\r\nContent-Type: text/html\r\nContent-Length: 0\r\n\r\n", some .readFailed) := by decide +kernel

/-- "not allowed method" -/
example : talk [b!"DELETE / HTTP/1.1\r\n" ++ hdrs ++ b!"\r\n"] = some (b!"HTTP/1.1 405 Method Not Allowed\r\nAllow: GET,POST\r\nAccept-Encodings: identity\r\nContent-Type: text/html\r\nContent-Length: 0\r\n\r\n", some .readFailed) := by decide +kernel

/-- "idle disconnect" -/
example : talk [] = some ([], some .readFailed) := by decide +kernel

/-- "ctx value" -/
example : talk [b!"GET /ctx-value HTTP/1.1\r\n" ++ hdrs ++ b!"\r\n"] = some (b!"HTTP/1.1 200 OK\r\nAccept-Encodings: identity\r\nContent-Type: text/html\r\nContent-Length: 3\r\n\r\negg", some .readFailed) := by decide +kernel

/-- "json" (what encoding/json makes of the map is left out) -/
example : talk [b!"GET /json HTTP/1.1\r\n" ++ hdrs ++ b!"Fields: hello\r\nFields: foo\r\nHello: world\r\nFoo: bar\r\nFoo: spam\r\n\r\n"] = some (b!"HTTP/1.1 200 OK\r\nAccept-Encodings: identity\r\nContent-Type: application/json\r\nContent-Length: 14\r\n\r\nworldbar, spam", some .readFailed) := by decide +kernel

/-- The route "/panic", which no test asks for. -/
example : talk [b!"GET /panic HTTP/1.1\r\n" ++ hdrs ++ b!"\r\n"] = some (b!"HTTP/1.1 500 Internal Server Error\r\nAccept-Encodings: identity\r\nContent-Type: text/html\r\nContent-Length: 0\r\n\r\n", some .readFailed) := by decide +kernel

/-- "HTTP/1.0 no explicit keep-alive": the connection is closed although the client has sent a second request. -/
example : talk [b!"GET /ctx-value HTTP/1.0\r\n\r\n", b!"GET / HTTP/1.0\r\n\r\n"] = some (b!"HTTP/1.0 200 OK\r\nAccept-Encodings: identity\r\nContent-Type: text/html\r\nContent-Length: 3\r\n\r\negg", some .writeFailed) := by decide +kernel

/-- "HTTP/1.0 with keep-alive" -/
example : talk [(List.replicate 10 b!"GET /ctx-value HTTP/1.0\r\nConnection: keep-alive\r\n\r\n").flatten] = some ((List.replicate 10 b!"HTTP/1.0 200 OK\r\nAccept-Encodings: identity\r\nContent-Type: text/html\r\nContent-Length: 3\r\n\r\negg").flatten, some .readFailed) := by decide +kernel

/-- "chunked body" -/
example : talk [b!"POST /body-reader HTTP/1.1\r\nConnection: close\r\nTransfer-Encoding: chunked\r\n\r\n7\r\nMozilla\r\n1\r\n \r\n11\r\nDeveloper Network\r\n0\r\n\r\n"] = some (b!"HTTP/1.1 200 OK\r\nAccept-Encodings: identity\r\nContent-Type: text/html\r\nContent-Length: 25\r\n\r\nMozilla Developer Network", some .writeFailed) := by decide +kernel

/-- "trace", with the routes without a variable -/
example : (make F text sampleEnv (calls.take 5)).map (fun rt =>
      (Serve.serve ⟨F, refParser, 2 ^ 40, Router.impl F .panic⟩ (Serve.newConn refParser Config.default 0 [] rt
        { conn := [(b!"TRACE / HTTP/1.1\r\n" ++ hdrs ++ b!"Hello: World!\r\n\r\n", none)] })).1.client.written.flatten) =
    some (b!"HTTP/1.1 200 OK\r\nAccept-Encodings: identity\r\nContent-Type: message/http\r\nContent-Length: 132\r\n\r\nTRACE / HTTP/1.1\r\nHost: localhost:16100\r\nUser-Agent: Go-http-client/1.1\r\nAccept-Encoding: gzip\r\nHello: World!\r\nContent-Length: 0\r\n\r\n") := by
  decide +kernel

end Indigo.Conformance.EndToEnd
