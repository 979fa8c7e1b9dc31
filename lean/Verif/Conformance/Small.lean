import Verif.Props.Router
import Verif.Model.Query
import Verif.Model.Cookie
import Verif.Model.ValueAccessors
import Verif.Model.Escape
import Verif.Model.Static
import Verif.Model.Virtual
import Verif.Model.Address

/-!
The tests of the smaller packages, on the model: http/request_test.go, http/response_test.go, http/path_test.go,
http/query, http/headers, http/cookie, router/inbuilt/uri, router/inbuilt/internal/radix, router/virtual,
internal/strlenmap, internal/keyvalue, internal/uridecode, internal/pathlib, internal/address. These are tests of the
model, not proofs of anything; see DESIGN.md.
-/

namespace Indigo.Conformance.Small
open Indigo.Router Indigo.Spec.Router Indigo.Props

local notation "F" => sampleFold

/-! ### http/request_test.go -/

def withCookies (cs : List Bytes) : Request :=
  { Headers := cs.foldl (fun h c => h.add b!"Cookie" c) Storage.new }

/-- TestCookies: no cookies -/
example : ((withCookies []).cookies F).1.map Storage.len = some 0 := by decide +kernel

/-- TestCookies: happy path, twice -/
example : let c := (withCookies [b!"hello=world; world=hello", b!"monke=funny"]).cookies F
    let look := fun (jar : Storage) => (jar.value F b!"hello", jar.value F b!"world", jar.value F b!"monke", jar.len)
    c.1.map look = some (b!"world", b!"hello", b!"funny", 3) ∧
    (c.2.cookies F).1.map look = some (b!"world", b!"hello", b!"funny", 3) := by decide +kernel

/-- TestCookies: malformed, twice -/
example : ((withCookies [b!"a"]).cookies F).1 = none ∧ (((withCookies [b!"a"]).cookies F).2.cookies F).1 = none := by
  decide +kernel

/-! ### http/query -/

/-- TestQuery -/
example : let q := ({} : Indigo.Query).set b!"hello=world"
    q.raw = b!"hello=world" ∧ q.parsed = false ∧ (q.get F b!"hello").2 = .ok b!"world" ∧
    ((q.get F b!"hello").1.get F b!"lorem").2 = .error .noSuchKey ∧
    ((q.get F b!"hello").1.get F b!"lorem").1.parsed = true := by decide +kernel

def parsed (s : Bytes) (key : Bytes) : Option Bytes :=
  match Query.parsePairs s with
  | (ps, none) => (ps.foldl (fun st p => st.add p.Key p.Value) Storage.new).get F key
  | (_, some _) => none

/-- TestParamsParser -/
example : parsed b!"hello=world" b!"hello" = some b!"world" ∧
    parsed b!"hello=world&lorem=ipsum" b!"hello" = some b!"world" ∧
    parsed b!"hello=world&lorem=ipsum" b!"lorem" = some b!"ipsum" ∧
    parsed b!"hello=&another=pair" b!"hello" = some [] ∧
    parsed b!"hello=" b!"hello" = some [] ∧
    (Query.parsePairs b!"=world").2 = some Status.ErrBadQuery ∧
    parsed b!"hello=world&" b!"hello" = some b!"world" ∧
    (∀ s ∈ [b!"lorem&hello=world&foo=bar", b!"hello=world&lorem&foo=bar", b!"hello=world&foo=bar&lorem"],
      parsed s b!"hello" = some b!"world" ∧ parsed s b!"foo" = some b!"bar" ∧ parsed s b!"lorem" = some b!"1") ∧
    parsed b!"lorem" b!"lorem" = some b!"1" ∧
    parsed b!"hel+lo=wo+rld" b!"hel lo" = some b!"wo rld" ∧
    parsed b!"hel%20lo=wo%20rld" b!"hel lo" = some b!"wo rld" := by decide +kernel

/-! ### http/response_test.go (what encoding/json writes is given) -/

/-- TestResponse -/
example : (Fields.new.json (fun _ => []) b!"[1,2,3]" none).Body = b!"[1,2,3]" ∧
    (Fields.new.json (fun _ => []) b!"[1,2,3]" none).ContentType = b!"application/json" := by decide +kernel

/-! ### http/headers/valueaccessors_test.go -/

/-- TestGetParam, TestQualityOf, TestValueOf -/
example : Headers.getParam b!"hello;world=true;another=earth" b!";world=" [] = b!"true" ∧
    Headers.getParam b!"hello;world=true;another=earth" b!";another=" [] = b!"earth" ∧
    Headers.getParam b!"hello;world=true;another=earth" b!";unknown=" [] = [] ∧
    Headers.qualityOf b!"text/html;q=0.5;charset=utf8" = 5 ∧ Headers.qualityOf b!"text/html;charset=utf8;q=0.5" = 5 ∧
    Headers.qualityOf b!"text/html;charset=utf8" = 9 ∧ Headers.qualityOf b!"text/html;q=0.a" = 9 ∧
    Headers.valueOf b!"text/html" = b!"text/html" ∧ Headers.valueOf b!"text/html;q=0.9" = b!"text/html" := by
  decide +kernel

/-! ### http/path_test.go -/

/-- TestEscape -/
example : Escape.Escape b!"/" = b!"/" ∧ Escape.Escape (b!"/" ++ [0, 10, 0x7f]) = b!"/\\0\\n\\?" ∧
    (∀ i < (255 : Nat), Escape.isASCIIPrintable i.toUInt8 = (Escape.escapeByte i.toUInt8 == 0)) := by decide +kernel

/-! ### http/cookie/jar_test.go -/

/-- TestParse -/
example : (∀ s ∈ [b!"a=b", b!"a=b;", b!"a=b; "],
      (CookieJar.parse Storage.new s).2 = false ∧ (CookieJar.parse Storage.new s).1.value F b!"a" = b!"b") ∧
    (let r := CookieJar.parse Storage.new b!"hello=world; men=in black"
     r.2 = false ∧ r.1.value F b!"hello" = b!"world" ∧ r.1.value F b!"men" = b!"in black") := by decide +kernel

/-! ### router/inbuilt/uri/normalize_test.go -/

/-- TestNormalize -/
example : UriNormalize.normalize b!"/" = b!"/" ∧ UriNormalize.normalize [] = [] ∧
    UriNormalize.normalize b!"/api/" = b!"/api" ∧ UriNormalize.normalize b!"/api/////" = b!"/api" := by decide +kernel

/-! ### router/inbuilt/internal/radix -/

def segments (s : Bytes) : Option (List (Bool × Bytes)) :=
  match Radix.parse s with
  | .ok t => some (t.map (fun s => (s.IsWildcard, s.Payload)))
  | .error _ => none

/-- TestParse -/
example : segments b!"/hello/world" = some [(false, b!"hello"), (false, b!"world")] ∧
    segments b!"/hello/{world}" = some [(false, b!"hello"), (true, b!"world")] ∧
    segments b!"/hello/{world}/greet" = some [(false, b!"hello"), (true, b!"world"), (false, b!"greet")] ∧
    segments b!"/hello/{world}/greet/{name}" =
      some [(false, b!"hello"), (true, b!"world"), (false, b!"greet"), (true, b!"name")] := by decide +kernel

/-- TestParse_Negative -/
example : (match Radix.parse [] with | .error .emptyPath => true | _ => false) = true ∧
    (∀ s ∈ [b!"hello/world", b!"/hello/{world/something else}", b!"/hello/{world {another name}}",
      b!"/hello/{world}name/greet", b!"/hello-{world}/greet"], segments s = none) := by decide +kernel

def staticSample : Bytes := b!"/hello/world/length/does/not/matter"
def mediumTemplate : Bytes := b!"/hello/{world}/very/{good}/{ok}"
def longTemplate : Bytes := b!"/hello/{world}/very/{good}/{ok}/{wanna}/somestatic/{finally}/good"

/-- The payload a path finds, and the parameters. -/
def look (templates : List Bytes) (path : Bytes) : Option (Option Unit × List Pair) :=
  match Radix.Node.register (Radix.Node.new ()) (templates.map (fun t => (t, ()))) with
  | .ok n =>
    match n.match path Storage.new with
    | .done p params => some (p, params.pairs)
    | .panic => none
  | .error _ => none

/-- TestNode_Match_Positive -/
example : let l := look [staticSample, b!"/api/{}", b!"/hello/{world}", mediumTemplate, longTemplate, b!"/"]
    l staticSample = some (some (), []) ∧ l b!"/api/v1" = some (some (), []) ∧
    l b!"/hello/some-very-long-world" = some (some (), [⟨b!"world", b!"some-very-long-world"⟩]) ∧
    l b!"/hello/world-finally-became/very/good-as-fuck/ok-let-it-be" =
      some (some (), [⟨b!"world", b!"world-finally-became"⟩, ⟨b!"good", b!"good-as-fuck"⟩, ⟨b!"ok", b!"ok-let-it-be"⟩]) ∧
    l b!"/" = some (some (), []) := by decide +kernel

/-- TestNode_Match_Negative -/
example : let l := fun p => (look [staticSample, b!"/hello/{world}", mediumTemplate, longTemplate] p).map Prod.fst
    l b!"/hello" = some none ∧ l b!"/hello/" = some none ∧ l b!"/hello//very/good/ok" = some none := by decide +kernel

/-- TestArrMap -/
example : let fill := fun (n : Nat) => (List.range n).foldl (fun (a : ArrMap Unit) i => a.add [i.toUInt8] ()) {}
    (fill 30).arrOverflow = false ∧ (fill 30).arr.length = 30 ∧
    (fill 31).arrOverflow = true ∧ (fill 31).m.length = 31 := by decide +kernel

/-! ### router/virtual -/

def withHosts (hosts : List Bytes) : Request :=
  { Headers := hosts.foldl (fun h c => h.add b!"Host" c) Storage.new }

/-- The code of the answer to a request with these hosts; each host has a router without routes. -/
def virtually (ops : List (Virtual.Op Unit)) (hosts : List Bytes) : Status.Code :=
  let notFound : Handler Id := fun req => (Fields.new.code 404, req)
  let rt := Virtual.initRouter (fun _ => (⟨notFound, notFound⟩ : Simple.Router Id)) (Virtual.build ops)
  (Prod.fst (Id.run (Virtual.onRequest F (Simple.impl Id) rt (withHosts hosts)).1)).Code

/-- TestVirtualRouter -/
example : virtually [] [b!"localhost"] = 421 ∧
    virtually [.default ()] [b!"localhost"] = 404 ∧ virtually [.default ()] [b!"127.0.0.1"] = 404 ∧
    virtually [.host b!"0.0.0.0" ()] [b!"localhost"] = 404 ∧ virtually [.host b!"0.0.0.0" ()] [b!"127.0.0.1"] = 404 ∧
    virtually [.host b!"pavlo.gay" ()] [b!"pavlo.gay"] = 404 ∧
    virtually [.host b!"pavlo.gay" ()] [b!"localhost"] = 421 ∧
    virtually [.host b!"pavlo.gay" ()] [b!"pavlo.gay", b!"localhost"] = 400 := by decide +kernel

/-- TestNormalize, TestTrimPort of router/virtual/internal/domain -/
example : Domain.normalize b!"foo.example.com" = b!"foo.example.com" ∧
    Domain.normalize b!"foo.example.com:80" = b!"foo.example.com" ∧
    Domain.normalize b!"foo.example.com:443" = b!"foo.example.com" ∧
    Domain.normalize b!"foo.example.com:8080" = b!"foo.example.com:8080" ∧
    Domain.normalize b!"www.foo.example.com" = b!"foo.example.com" ∧ Domain.normalize b!"1.1.1.1:80" = b!"1.1.1.1" ∧
    Domain.trimPort b!"localhost:8080" = b!"localhost" ∧ Domain.trimPort b!"localhost" = b!"localhost" := by
  decide +kernel

/-! ### internal/strlenmap -/

/-- TestMap -/
example : (({} : StrLenMap Bytes).get [], ({} : StrLenMap Bytes).get b!"any key") = (none, none) ∧
    (let m := (({} : StrLenMap Bytes).insert b!"hello" b!"world").insert b!"hi" b!"sky"
     m.get [] = none ∧ m.get b!"hallo" = none ∧ m.get b!"hello" = some b!"world" ∧ m.get b!"hi" = some b!"sky") ∧
    (let m := ((({} : StrLenMap Bytes).insert b!"hello" b!"world").insert b!"hallo" b!"sky").insert b!"borat"
       b!"best film fr"
     m.get b!"hello" = some b!"world" ∧ m.get b!"hallo" = some b!"sky" ∧ m.get b!"borat" = some b!"best film fr") := by
  decide +kernel

/-! ### internal/keyvalue -/

def asTested (kv : Storage) : Prop :=
  kv.get F b!"Hello" = some b!"world" ∧ (kv.values F b!"Hello").1 = [b!"world"] ∧
  kv.get F b!"Some" = some b!"multiple" ∧ (kv.values F b!"Some").1 = [b!"multiple", b!"values"] ∧
  kv.get F b!"sOME" = some b!"multiple" ∧ (kv.values F b!"sOME").1 = [b!"multiple", b!"values"]

instance (kv : Storage) : Decidable (asTested kv) := by unfold asTested; infer_instance

/-- TestKeyValueStorage -/
example : asTested (((Storage.new.add b!"Hello" b!"world").add b!"Some" b!"multiple").add b!"Some" b!"values") ∧
    asTested (Storage.newFromMap [(b!"Hello", [b!"world"]), (b!"Some", [b!"multiple", b!"values"])]) ∧
    asTested (Storage.newFromMap [(b!"Some", [b!"multiple", b!"values"]), (b!"Hello", [b!"world"])]) ∧
    (let kv := Storage.new.add b!"Hello" b!"world"
     kv.has F b!"Hello" = true ∧ kv.has F b!"hELLO" = true ∧ kv.has F b!"random" = false) ∧
    (Storage.keys F ((((Storage.new.add b!"Hello" b!"world").add b!"sOME" b!"multiple").add b!"Some" b!"values").add
      b!"hELLO" b!"nether")).1 = [b!"Hello", b!"sOME"] := by decide +kernel

/-! ### internal/uridecode -/

/-- TestDecode -/
example : UriDecode.Decode b!"/hello" = some b!"/hello" ∧ UriDecode.Decode b!"%2fhello%2f" = some b!"/hello/" ∧
    UriDecode.Decode b!"%2f%20hello" = some b!"/ hello" ∧ UriDecode.Decode b!"%2" = none := by decide +kernel

set_option maxRecDepth 200000 in
/-- TestDecode: 4kb slightly escaped -/
example : UriDecode.Decode (b!"/" ++ (List.replicate 315 b!"%5faaaaaaaaaa").flatten) =
    some (b!"/" ++ (List.replicate 315 b!"_aaaaaaaaaa").flatten) := by decide +kernel

/-! ### internal/pathlib, internal/address -/

/-- What `Relative` gives for each of these paths in turn. -/
def relatives (pre replaceWith : Bytes) (paths : List Bytes) : Option (List Bytes) :=
  (PathLib.newPath pre replaceWith).bind (fun c => go c {} paths)
where
  go (c : PathLib.Conf) : PathLib.Mem → List Bytes → Option (List Bytes)
    | _, [] => some []
    | m, p :: ps =>
      match PathLib.relative c (PathLib.set c m p) with
      | none => none
      | some (v, m) => (go c m ps).map (fun l => m.read v :: l)

/-- TestPath -/
example : relatives b!"/" b!"./static" [b!"/index.html"] = some [b!"./static/index.html"] ∧
    relatives b!"/static/" b!"." [b!"/static/index.html"] = some [b!"./index.html"] ∧
    relatives b!"/" b!"./static" [b!"/index.html", b!"/index"] = some [b!"./static/index.html", b!"./static/index"] := by
  decide +kernel

/-- TestParse -/
example : Address.isLocalhost b!"localhost" = true ∧ Address.isLocalhost b!"localhost:8080" = true ∧ Address.isIP b!"1.2.3.4" = true ∧
    Address.isIP b!"1.2.3.4:8080" = true ∧ Address.isIP b!"1.2.3.256" = false := by decide +kernel
/-- `strings.EqualFold("localhoſt", "localhost")` -/
example : Address.isLocalhost b!"localhoſt:1" = true := by decide +kernel

end Indigo.Conformance.Small
