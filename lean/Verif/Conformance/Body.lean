/-
The project's own tests of request bodies (internal/protocol/http1/body_test.go), run on the model.
-/
import Verif.Model.Body
import Verif.Spec.Chunked

namespace Indigo.Conformance
open Indigo.Spec

/-- body_test.go:20-52 `getRequestWithBody`: the client gives the segments again and again; twice is enough here. -/
def getRequestWithBody (chunked : Bool) (body : List Bytes) (maxSize : Nat := 512 * 1024 * 1024) : BC CS :=
  let request : Request := { ContentLength := if chunked then 0 else body.flatten.length, Encoding := { Chunked := chunked } }
  ((Body.new refParser maxSize).initFor request, { conn := (body ++ body).map (·, none) })

/-- body_test.go:55-61 "call once". -/
example : (Body.string refParser (2 ^ 40) (getRequestWithBody false [b!"Hello, world!"])).1 = .ok (b!"Hello, world!", none) := by decide +kernel

/-- body_test.go:63-83 "multiple calls". -/
example :
    (Body.calls refParser (2 ^ 40) [.string, .string] (getRequestWithBody false [b!"Hel", b!"lo, ", b!"wor", b!"ld!"])).1 =
      [.whole (some b!"Hello, world!") none, .whole (some b!"Hello, world!") none] := by decide +kernel

/-- body_test.go:85-110 "a lot of data". -/
example :
    let s : BC CS := ((Body.new refParser (512 * 1024 * 1024)).initFor { ContentLength := 10 }, { conn := [(b!"aaaaaaaaaabbbbbbbbbb", none)] })
    let (r1, s) := Body.retrieve refParser s
    let (r2, s) := Body.retrieve refParser s
    r1 = (b!"aaaaaaaaaa", some .eof) ∧ r2 = ([], some .eof) ∧ s.2.read.1 = (b!"bbbbbbbbbb", none) := by decide +kernel

/-- body_test.go:112-129 "reader": the loop. -/
def readAll : Nat → BC CS → Option Bytes
  | 0, _ => none
  | fuel + 1, s =>
    match Body.read refParser 1 s with
    | ((d, some .eof), _) => some d
    | ((_, some _), _) => none
    | ((d, none), s) => (readAll fuel s).map (d ++ ·)

example : readAll 30 (getRequestWithBody false [b!"qwertyuiopasdfghjklzxcvbnm"]) = some b!"qwertyuiopasdfghjklzxcvbnm" := by decide +kernel

/-- body_test.go:131-143 "too big plain body". -/
example : (Body.bytes refParser (2 ^ 40) (getRequestWithBody false [b!"aaaaaaaaaa"] 9)).1 = .ok (none, some (.http Status.ErrBodyTooLarge)) := by
  decide +kernel

/-- body_test.go:146-155 `TestBodyReader_Chunked`. -/
example :
    (Body.string refParser (2 ^ 40) (getRequestWithBody true [b!"7\r\nMozilla\r\n9\r\nDeveloper\r\n7\r\nNetwork\r\n0\r\n\r\n"])).1 =
      .ok (b!"MozillaDeveloperNetwork", none) := by decide +kernel

end Indigo.Conformance
