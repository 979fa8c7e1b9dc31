/-
The project's own tests of connections (internal/protocol/http1/suit_test.go), run on the model.
-/
import Verif.Model.Serve
import Verif.Spec.Chunked

namespace Indigo.Conformance
open Indigo.Spec

/-- internal/requestgen/generator.go `Headers`. -/
def genHeaders (n : Nat) : List Pair :=
  (List.range (n - 1)).map (fun i => ⟨b!"some-random-header-name-nobody-cares-about" ++ decBytes i, List.replicate 100 98⟩) ++ [⟨b!"Host", b!"localhost"⟩]

/-- internal/requestgen/generator.go `Generate`. -/
def generate (uri : Bytes) (hdrs : List Pair) : Bytes :=
  b!"GET /" ++ uri ++ b!" HTTP/1.1\r\n" ++ hdrs.flatMap (fun h => h.Key ++ b!": " ++ h.Value ++ b!"\r\n") ++ b!"\r\n"

/-- suit_bench_test.go `disperse`: into parts of at most `n` bytes. -/
def disperse (n : Nat) : Nat → Bytes → List Bytes
  | 0, _ => []
  | fuel + 1, raw => if raw.isEmpty then [] else raw.take n :: disperse n fuel (raw.drop n)

/-- suit_test.go:15-23 `newSimpleRouter`: a handler which panics unless it sees the wanted headers, and an error handler which panics. -/
def newSimpleRouter (want : List Pair) : Simple.Router Act where
  handler req := if req.Headers.pairs = want then .ret (Fields.new, req) else .panic
  errHandler _ := .panic

/-- Whether `ServeOnce` returns true `n` times. -/
def servesOn {ρ : Type} (E : Serve.Setup CS ρ) : Nat → Serve.Conn CS ρ → Bool
  | 0, _ => true
  | n + 1, c =>
    match Serve.step E c with
    | (c, none) => servesOn E n c
    | (_, some _) => false

/-- The server of the tests, fed with the parts again and again (`rounds` times). -/
def serves (want : List Pair) (parts : List Bytes) (rounds : Nat) : Bool :=
  servesOn ⟨Fold.ascii, refParser, 2 ^ 40, Simple.impl Act⟩ (rounds * parts.length)
    (Serve.newConn refParser Config.default 0 [] (newSimpleRouter want) { conn := (List.replicate rounds parts).flatten.map (·, none) })

/-- suit_test.go:28-38 "simple get". -/
example : serves [⟨b!"Accept-Encoding", b!"identity"⟩] [b!"GET / HTTP/1.1\r\nAccept-Encoding: identity\r\n\r\n"] 10 = true := by decide +kernel

/-- Any other header makes the test fail. -/
example : serves [⟨b!"Accept-Encoding", b!"identity"⟩] [b!"GET / HTTP/1.1\r\nAccept-Encoding: gzip\r\n\r\n"] 1 = false := by decide +kernel

/-- suit_test.go:40-64 "5 headers" and "10 headers" (each twice instead of ten times). -/
example : serves (genHeaders 5) (disperse 4096 4 (generate (List.replicate 500 97) (genHeaders 5))) 2 = true := by decide +kernel

example : serves (genHeaders 10) (disperse 4096 4 (generate (List.replicate 500 97) (genHeaders 10))) 2 = true := by decide +kernel

/-- suit_test.go:66-79 "50 headers" (two rounds; there are two parts). -/
example : (disperse 4096 4 (generate (List.replicate 500 97) (genHeaders 50))).length = 2 ∧
    serves (genHeaders 50) (disperse 4096 4 (generate (List.replicate 500 97) (genHeaders 50))) 2 = true := by decide +kernel

/-- suit_test.go:81-94 "heavily escaped" (two rounds). -/
example : serves (genHeaders 20) (disperse 4096 4 (generate (List.replicate 500 b!"%20").flatten (genHeaders 20))) 2 = true := by decide +kernel

/-- suit_bench_test.go:19-36: the route of the tests with bodies; the other ones play no part. -/
def postRouter : Simple.Router Act where
  handler req := Act.bind (Act.call (.callback (fun _ _ => none))) (fun _ => .ret (Fields.new, req))
  errHandler _ := .panic

/-- The server with this router. -/
def posts (parts : List Bytes) (steps : Nat) (rounds : Nat) : Bool :=
  servesOn ⟨Fold.ascii, refParser, 2 ^ 40, Simple.impl Act⟩ steps
    (Serve.newConn refParser Config.default 0 [] postRouter { conn := (List.replicate rounds parts).flatten.map (·, none) })

/-- suit_test.go:100-108 "POST hello world". -/
example : posts [b!"POST / HTTP/1.1\r\nContent-Length: 13\r\n\r\nHello, world!"] 10 10 = true := by decide +kernel

/-- suit_test.go:110-122 "discard POST 10mib" (300 bytes in parts of 40 bytes instead of 10 MB in parts of 4096 bytes). -/
example :
    let parts := disperse 40 20 (b!"POST / HTTP/1.1\r\nContent-Length: 300\r\n\r\n" ++ List.replicate 300 97)
    posts parts parts.length (2 * parts.length) = true := by decide +kernel

/-- suit_test.go:124-139 "discard chunked 10mib" (10 chunks of 30 bytes). -/
example :
    let parts := disperse 40 20 (b!"POST / HTTP/1.1\r\nTransfer-Encoding: chunked\r\n\r\n" ++
      (List.replicate 10 (b!"1e\r\n" ++ List.replicate 30 97 ++ b!"\r\n")).flatten ++ b!"0\r\n\r\n")
    posts parts parts.length (2 * parts.length) = true := by decide +kernel

end Indigo.Conformance
