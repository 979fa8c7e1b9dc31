/-
The project's own tests of the request parser (internal/protocol/http1/parser_test.go), run on the model. These are tests, not proofs: they show that the
model does on these inputs what the authors of the code say it does.
-/
import Verif.Model.Serve
import Verif.Spec.Chunked

namespace Indigo.Conformance
open Indigo.Parser Indigo.Spec

/-- parser_test.go:21-29 `getParser`. -/
def getParser : PState := (Serve.newConn refParser Config.default 0 [] () {}).parser

/-- `Parse`, and after it `request.Clear()`, one raw request after another. -/
def parses (p : PState) : List Bytes → List (Request × PRes)
  | [] => []
  | raw :: more => let (p, r) := parse Fold.ascii p raw; (p.req, r) :: parses { p with req := p.req.reset } more

/-- parser_test.go:38-48 `compareRequests`, for completed heads without extra bytes. -/
def wanted (m : Method) (path : Bytes) (headers : List (Bytes × List Bytes)) (x : Request × PRes) : Bool :=
  x.2 = .completed [] && x.1.Method = m && x.1.Path = path && x.1.Proto = Proto.HTTP11 &&
    headers.all (fun kv => (x.1.Headers.values Fold.ascii kv.1).1 = kv.2)

/-- parser_test.go:50-61 `splitIntoParts`. -/
def splitIntoParts (n : Nat) : Nat → Bytes → List Bytes
  | 0, _ => []
  | fuel + 1, raw => if raw.isEmpty then [] else raw.take n :: splitIntoParts n fuel (raw.drop n)

/-- parser_test.go:63-85 `feedPartially`, then `request.Clear()`, for several part lengths, with one parser. -/
def feeds (raw : Bytes) (p : PState) : List Nat → List (Request × PRes)
  | [] => []
  | n :: ns =>
    let (p, r, _) := feed Fold.ascii p (splitIntoParts n raw.length raw)
    (p.req, r) :: feeds raw { p with req := p.req.reset } ns

/-- parser_test.go:87-282 `TestHttpRequestsParser_Parse_GET`: one parser is used for all the parts of the test, up to "escaping".
(`require.Error` only asks for some error: the code of the second one is 501, not 400.) -/
example :
    (match parses getParser [
        b!"GET / HTTP/1.1\r\n\r\n",
        b!"\r\n\r\nGET / HTTP/1.1\r\n\r\n",
        b!"GET / HTTP/1.1\r\nHello: World!\r\nEaster: Egg\r\n\r\n",
        b!"GET / HTTP/1.1\r\nAccept: one,two\r\nAccept: three\r\n\r\n",
        b!"GET / HTTP/1.1\nHello: World!\n\n",
        b!"GET /hello%2C%20world HTTP/1.1\r\n\r\n"] with
      | [x1, x2, x3, x4, x5, x6] =>
        wanted .GET b!"/" [] x1 && (match x2.2 with | .error _ => true | _ => false) && wanted .GET b!"/" [(b!"hello", [b!"World!"])] x3 &&
        wanted .GET b!"/" [(b!"accept", [b!"one,two", b!"three"])] x4 && wanted .GET b!"/" [(b!"hello", [b!"World!"])] x5 &&
        wanted .GET b!"/hello, world" [] x6
      | _ => false) = true := by decide +kernel

/-- parser_test.go:188-189, with `requestgen.Generate` (internal/requestgen/generator.go): a path with 500 escapes. -/
example :
    wanted .GET (b!"/" ++ List.replicate 500 32) []
      ((parses getParser [b!"GET /" ++ (List.replicate 500 b!"%20").flatten ++ b!" HTTP/1.1\r\nsome-random-header-name: some-random-header-value\r\n\r\n"]).headD
        ({}, .panic)) = true := by decide +kernel

/-- parser_test.go:212-233 "fuzz GET". -/
example :
    (feeds b!"GET / HTTP/1.1\r\nHello: World!\r\nEaster: Egg\r\n\r\n" getParser ((List.range 45).map (· + 1))).all
      (wanted .GET b!"/" [(b!"hello", [b!"World!"])]) = true := by decide +kernel

/-- parser_test.go:235-281 "absolute path", "content-length" and "connection". -/
example :
    (match parses getParser [
        b!"GET http://www.w3.org/pub/WWW/TheProject.html HTTP/1.1\r\n\r\n",
        b!"GET / HTTP/1.1\r\nContent-Length: 13\n\r\nHello, world!",
        b!"GET / HTTP/1.1\r\nContent-Length: 13\r\nHi-Hi: ha-ha\r\n\r\nHello, world!",
        b!"GET / HTTP/1.1\r\nConnection: Keep-Alive\r\n\r\n"] with
      | [x1, x2, x3, x4] =>
        wanted .GET b!"http://www.w3.org/pub/WWW/TheProject.html" [] x1 &&
        x2.2 = .completed b!"Hello, world!" && x2.1.ContentLength = 13 &&
        x3.2 = .completed b!"Hello, world!" && x3.1.ContentLength = 13 && x3.1.Headers.has Fold.ascii b!"hi-hi" &&
        x3.1.Headers.value Fold.ascii b!"hi-hi" = b!"ha-ha" &&
        x4.2 = .completed [] && x4.1.Connection = b!"Keep-Alive"
      | _ => false) = true := by decide +kernel

/-- parser_test.go:287-307 "fuzz POST by different chunk sizes"; the extra bytes are not looked at. -/
example :
    (feeds b!"POST / HTTP/1.1\r\nHello: World!\r\nContent-Length: 13\r\n\r\nHello, World!" getParser ((List.range 67).map (· + 1))).all
      (fun x => (match x.2 with | .completed _ => true | _ => false) && wanted .POST b!"/" [(b!"hello", [b!"World!"])] (x.1, .completed [])) = true := by
  decide +kernel

/-- parser_test.go:309-326 "query in a path". -/
example :
    (match parses getParser [b!"GET /path?hello=world HTTP/1.1\r\n\r\n"] with
      | [x] => wanted .GET b!"/path" [] x && x.1.Query.raw = b!"hello=world"
      | _ => false) = true := by decide +kernel

/-- parser_test.go:329-487 `TestHttpRequestsParser_Parse_Negative`: each raw request, and the error it gives a new parser. -/
def negative : List (Bytes × Status.HTTPError) := [
  (b!" / HTTP/1.1\r\n\r\n", Status.ErrBadRequest),
  (b!"GET HTTP/1.1\r\n\r\n", Status.ErrBadRequest),
  (b!"GET  HTTP/1.1\r\n\r\n", Status.ErrBadRequest),
  (b!"GE / HTTP/1.1\r\n\r\n", Status.ErrMethodNotImplemented),
  (b!"PATCHPOSTPUT / HTTP/1.1\r\n\r\n", Status.ErrMethodNotImplemented),
  (b!"GET / HTT\r\n\r\n", Status.ErrUnsupportedProtocol),
  (b!"GET / HTTPS/1.1\r\n\r\n", Status.ErrUnsupportedProtocol),
  (b!"GET / HTTP/1.2\r\n\r\n", Status.ErrUnsupportedProtocol),
  (b!"GET / HTTP/42.1\r\n\r\n", Status.ErrUnsupportedProtocol),
  (b!"GET / HTTP/1.x\r\n\r\n", Status.ErrUnsupportedProtocol),
  (b!"GET / HTTP/x.1\r\n\r\n", Status.ErrUnsupportedProtocol),
  (b!"GET / HTTP/1.1\n\r\r\n", Status.ErrBadRequest),
  (b!"GET / HTTP/1.1\r\nContent-Length: 1f5\r\n\r\n", Status.ErrBadRequest),
  (b!"GET / \r\n", Status.ErrUnsupportedProtocol)]

example : negative.all (fun t => (parse Fold.ascii getParser t.1).2 = .error t.2) = true := by decide +kernel

/-- parser_test.go:426-436 "lfcr lfcr break sequence". -/
example : (parse Fold.ascii getParser b!"GET / HTTP/1.1\n\r\n\r").2 = .completed b!"\r" := by decide +kernel

set_option maxRecDepth 200000 in
/-- parser_test.go:456-465 "too long header key". -/
example : (parse Fold.ascii getParser (b!"GET / HTTP/1.1\r\n" ++ List.replicate (100 * 50 + 1) 97 ++ b!": some value\r\n\r\n")).2 =
    .error Status.ErrHeaderFieldsTooLarge := by decide +kernel

set_option maxRecDepth 200000 in
/-- parser_test.go:467-475 "too long header value". -/
example : (parse Fold.ascii getParser (b!"GET / HTTP/1.1\r\nSome-Header: " ++ List.replicate (8 * 1024 + 1) 97 ++ b!"\r\n\r\n")).2 =
    .error Status.ErrHeaderFieldsTooLarge := by decide +kernel

/-- parser_test.go:477-486 "too many headers" (the random names are replaced by one). -/
example : (parse Fold.ascii getParser (b!"GET / HTTP/1.1\r\n" ++ (List.replicate 51 b!"abcdefghijklmnop: some value\r\n").flatten ++ b!"\r\n")).2 =
    .error Status.ErrTooManyHeaders := by decide +kernel

/-- parser_test.go:489-540 `TestParseEncoding`. -/
example :
    parseEncodingString Fold.ascii b!"" 10 = ([], false) ∧
    parseEncodingString Fold.ascii b!"chunked" 10 = ([b!"chunked"], true) ∧
    parseEncodingString Fold.ascii b!"gzip" 10 = ([b!"gzip"], false) ∧
    parseEncodingString Fold.ascii b!"chunked,gzip" 10 = ([b!"chunked", b!"gzip"], true) ∧
    parseEncodingString Fold.ascii b!"gzip,chunked" 10 = ([b!"gzip", b!"chunked"], true) ∧
    parseEncodingString Fold.ascii b!"chunked,  gzip" 10 = ([b!"chunked", b!"gzip"], true) ∧
    parseEncodingString Fold.ascii b!"gzip,  chunked" 10 = ([b!"gzip", b!"chunked"], true) ∧
    parseEncodingString Fold.ascii b!" , chunked, gzip, " 10 = ([b!"chunked", b!"gzip"], true) ∧
    parseEncodingString Fold.ascii b!" , chunked" 10 = ([b!"chunked"], true) ∧
    parseEncodingString Fold.ascii b!"gzip,flate,chunked" 1 = ([], false) := by decide +kernel

end Indigo.Conformance
