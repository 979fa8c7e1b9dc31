/-
The project's own tests of the serializer (internal/protocol/http1/serializer_test.go), run on the model. What Go's `net/http` makes of the output in these
tests is replaced by the output itself.
-/
import Verif.Model.Serializer
import Verif.Spec.Chunked

namespace Indigo.Conformance
open Indigo.Spec

/-- serializer_test.go:24-26 `newSerializer`. -/
def newSerializer (defaults : List (Bytes × Bytes)) : Serializer := Serializer.new 128 defaults

/-- The result of `Write`, and everything written. -/
def written (d : Serializer) (p : Proto) (req : Request) (f : Fields) : WOut × Bytes :=
  let w := d.write Fold.ascii p req f {}
  (w.out, w.client.written.flatten)

/-- serializer_test.go:47-59 "default builder". -/
example : written (newSerializer []) Proto.HTTP11 { Method := .GET } Fields.new =
    (.done none, b!"HTTP/1.1 200 OK\r\nContent-Type: text/html\r\nContent-Length: 0\r\n\r\n") := by decide +kernel

/-- serializer_test.go:62-64: the response with headers. -/
def responseWithHeaders : Option Fields :=
  (Fields.new.header Fold.ascii b!"Hello" [b!"nether"]).bind (fun f => f.header Fold.ascii b!"Something" [b!"special", b!"here"])

/-- serializer_test.go:61-94 "default headers", two times with one serializer: `Hello` overridden, `Server` and `Lorem` from the defaults. -/
example :
    let d := newSerializer [(b!"Hello", b!"world"), (b!"Server", b!"indigo"), (b!"Lorem", b!"ipsum, something else")]
    let f := responseWithHeaders.getD {}
    let text := b!"HTTP/1.1 200 OK\r\nHello: nether\r\nSomething: special\r\nSomething: here\r\nServer: indigo\r\nLorem: ipsum, something else\r\nContent-Type: text/html\r\nContent-Length: 0\r\n\r\n"
    responseWithHeaders.isSome ∧ written d Proto.HTTP11 { Method := .GET } f = (.done none, text) ∧
      written (d.write Fold.ascii Proto.HTTP11 { Method := .GET } f {}).ser Proto.HTTP11 { Method := .GET } f = (.done none, text) := by decide +kernel

/-- serializer_test.go:96-114 "HEAD request": the serializer of the test has a GET request, and the reader ignores the body. -/
example : written (newSerializer []) Proto.HTTP11 { Method := .GET } (Fields.new.bytes b!"Hello, world!") =
    (.done none, b!"HTTP/1.1 200 OK\r\nContent-Type: text/html\r\nContent-Length: 13\r\n\r\nHello, world!") := by decide +kernel

/-- serializer_test.go:116-121 "HTTP/1.0 without keep-alive". -/
example : (written (newSerializer []) Proto.HTTP10 { Method := .GET } Fields.new).1 = .done (some (.http Status.ErrCloseConnection)) := by decide +kernel

/-- serializer_test.go:123-133 "custom code and status". -/
example : let w := written (newSerializer []) Proto.HTTP11 { Method := .GET } (Fields.new.code 600)
    w.1 = .done none ∧ b!"HTTP/1.1 600 ".isPrefixOf w.2 := by decide +kernel

/-- serializer_test.go:135-150 "attachment with known size". -/
example : written (newSerializer []) Proto.HTTP11 { Method := .GET } (Fields.new.attachment (some [(b!"Hello, world!", none)]) 13) =
    (.done none, b!"HTTP/1.1 200 OK\r\nContent-Type: text/html\r\nContent-Length: 13\r\n\r\nHello, world!") := by decide +kernel

/-- serializer_test.go:152-167 "attachment with unknown size". -/
example : written (newSerializer []) Proto.HTTP11 { Method := .GET } (Fields.new.attachment (some [(b!"Hello, world!", none)]) 0) =
    (.done none, b!"HTTP/1.1 200 OK\r\nContent-Type: text/html\r\nTransfer-Encoding: chunked\r\n\r\nd\r\nHello, world!\r\n0\r\n\r\n") := by decide +kernel

/-- serializer_test.go:169-187 "attachment in respose to a HEAD request". -/
example : written (newSerializer []) Proto.HTTP11 { Method := .HEAD } (Fields.new.attachment (some [(b!"Hello, world!", none)]) 13) =
    (.done none, b!"HTTP/1.1 200 OK\r\nContent-Type: text/html\r\nContent-Length: 13\r\n\r\n") := by decide +kernel

/-- serializer_test.go:190-203 "single pair no params" (the request is a HEAD request since the test before). -/
example : written (newSerializer []) Proto.HTTP11 { Method := .HEAD } (Fields.new.cookie [{ Name := b!"hello", Value := b!"world" }]) =
    (.done none, b!"HTTP/1.1 200 OK\r\nContent-Type: text/html\r\nSet-Cookie: hello=world\r\nContent-Length: 0\r\n\r\n") := by decide +kernel

/-- serializer_test.go:208-217: the cookie. -/
def baseCookie : Cookie where
  Name := b!"hello"
  Value := b!"world"
  Path := b!"/"
  Domain := b!"pavlo.gay"
  Expires := some b!"Thu, 27 May 2010 16:10:32 GMT"
  SameSite := b!"Lax"
  Secure := true
  HttpOnly := true

/-- serializer_test.go:205-238 "multiple pairs with parameters". -/
example : written (newSerializer []) Proto.HTTP11 { Method := .HEAD } (Fields.new.cookie [{ baseCookie with MaxAge := 3600 }, { baseCookie with MaxAge := -1 }]) =
    (.done none, b!"HTTP/1.1 200 OK\r\nContent-Type: text/html\r\n" ++
      b!"Set-Cookie: hello=world; Path=/; Domain=pavlo.gay; Expires=Thu, 27 May 2010 16:10:32 GMT; MaxAge=3600; SameSite=Lax; Secure; HttpOnly\r\n" ++
      b!"Set-Cookie: hello=world; Path=/; Domain=pavlo.gay; Expires=Thu, 27 May 2010 16:10:32 GMT; MaxAge=0; SameSite=Lax; Secure; HttpOnly\r\n" ++
      b!"Content-Length: 0\r\n\r\n") := by decide +kernel

/-- serializer_test.go:250-253: the preliminary response. -/
def preliminary : Fields :=
  let f := Fields.new.code Status.SwitchingProtocols
  let f := (f.header Fold.ascii b!"Connection" [b!"upgrade"]).getD f
  (f.header Fold.ascii b!"Upgrade" [b!"HTTP/1.1"]).getD f

/-- serializer_test.go:242-285 `TestSerializer_PreWrite`. -/
example :
    let d := (newSerializer [(b!"Hello", b!"world")]).preWrite Fold.ascii Proto.HTTP10 preliminary
    written d Proto.HTTP11 { Proto := Proto.HTTP10, Upgrade := Proto.HTTP11 } Fields.new =
      (.done none,
        b!"HTTP/1.0 101 Switching Protocol\r\nConnection: upgrade\r\nUpgrade: HTTP/1.1\r\nHello: world\r\nContent-Type: text/html\r\n\r\n" ++
        b!"HTTP/1.1 200 OK\r\nHello: world\r\nContent-Type: text/html\r\nContent-Length: 0\r\n\r\n") := by decide +kernel

/-- serializer_test.go:288-298 "single chunk" (with a buffer of 64 bytes). -/
example :
    let r : Reader := [(b!"Hello, world!", none)]
    let w := Serializer.writeChunkedBody (Serializer.readerSize r) (List.replicate 64 0) r {}
    w.1 = .done none ∧ w.2.2.written.flatten = b!"d\r\nHello, world!\r\n0\r\n\r\n" := by decide +kernel

/-- serializer_test.go:300-327 "long chunk into small buffer" (800 bytes). -/
example :
    let payload := (List.replicate 100 b!"abcdefgh").flatten
    let r : Reader := [(payload, none)]
    let w := Serializer.writeChunkedBody (Serializer.readerSize r) (List.replicate 64 0) r {}
    w.1 = .done none ∧ crun false (.size 0 false) w.2.2.written.flatten = some (payload, []) := by decide +kernel

end Indigo.Conformance
