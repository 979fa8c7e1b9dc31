/-
Specification of a conversation: what a client sends on one connection, and what is to become of it.
-/
import Verif.Model.Serve
import Verif.Spec.Head
import Verif.Spec.Outcome
import Verif.Spec.Chunked
import Verif.Spec.Body
import Verif.Spec.Response

namespace Indigo.Spec
open Serve (Visit Ended Setup)
variable {σ ρ : Type}

/-- A request as a client sends it: the head, the path its target denotes, the body, and the bytes by which the
body is sent. -/
structure Sending where
  head : Head
  path : Bytes
  body : Bytes
  coded : Bytes

/-- The bytes of a request on the wire. -/
def Sending.bytes (s : Sending) : Bytes := s.head.render ++ s.coded

/-- The head announces the chunked coding. -/
def Head.isChunked (F : Fold) (maxTokens : Nat) (h : Head) : Bool :=
  (((h.last b!"transfer-encoding").map (encTokens maxTokens)).getD []).any (fun t => F.eq t b!"chunked")

/-- The length announced by Content-Length (0, if it is absent), which is read modulo 2^64: a length which does not fit in 64 bits
is not refused, see `C07_content_length_violation`. -/
def Head.announced (h : Head) : Nat := decimal h.lengthDigits % 2 ^ 64

/-- How the body is sent is what the head announces. -/
inductive Framed (F : Fold) (maxTokens : Nat) (s : Sending) : Prop
  /-- by as many bytes as Content-Length says (none, if it is absent) -/
  | sized : s.head.isChunked F maxTokens = false → s.coded = s.body → s.head.announced = s.body.length → Framed F maxTokens s
  /-- by chunks -/
  | chunked (chunks : List Bytes) : s.head.isChunked F maxTokens = true → ChunkedCoding chunks s.coded →
      s.body = chunks.flatten → Framed F maxTokens s

/-- A well-formed request within the limits. -/
structure Sendable (F : Fold) (L : Limits) (maxTokens maxBody : Nat) (s : Sending) : Prop where
  ok : s.head.OK
  clean : s.head.CleanNames
  noBareEmpty : s.head.NoBareEmpty
  fits : s.head.Fits L
  path : Unescapes s.head.target s.path
  framed : Framed F maxTokens s
  body : s.body.length ≤ maxBody

/-- Contract of the external decoder: it decodes the chunked coding (and `refParser` does). -/
def DecodesChunked (P : ChunkedParser σ) : Prop :=
  ∃ D, Decodes P D ∧ ∀ t chunks coded after, ChunkedCoding chunks coded →
    D P.init t (coded ++ after) chunks.flatten after

/-- What the router is to be called with for a request `s`: a request object saying what the head says and nothing
else (no path parameters, no context, the given environment), and a body which, retrieved to its end, is the body
which was sent; what follows on the connection is `after` (and then `post`: errors, and what comes after them). The body
object has just been initialised for this request. -/
structure Delivered (E : Setup σ ρ) (maxTokens : Nat) (remote : Bytes) (post : List (Bytes × Option GoErr))
    (env : Environment) (s : Sending) (after : Bytes) (seen : Request) (world : BC σ) : Prop where
  carries : Carries E.F maxTokens s.head seen
  path : seen.Path = s.path
  params : seen.Params.pairs = []
  ctx : seen.Ctx = []
  env : seen.Env = env
  remote : seen.Remote = remote
  hijacked : seen.wasHijacked = false
  fresh : ∃ b : Body σ, world.1 = b.initFor seen ∧ b.parser = E.P.init
  body : ∃ ds b' c', Pieces E.P world ds .eof (b', followedBy c' post) ∧ ds.flatten = s.body ∧
    c'.stream = after ∧ Quiet c' ∧ b'.parser = E.P.init

/-- The preliminary response for a request which is answered with another version of HTTP/1, `pre` being the
last one. -/
def switching (pre : Fields) (seen : Request) : Fields :=
  { pre with
    Code := 101
    Headers := pre.Headers ++ [⟨b!"Connection", b!"upgrade"⟩, ⟨b!"Upgrade", (Proto.toBytes seen.Proto).dropLast⟩] }

/-- Version of the response, and serializer and preliminary response when the response is written. -/
def opening (F : Fold) (d : Serializer) (pre : Fields) (seen : Request) : Proto × Serializer × Fields :=
  if seen.Upgrade = Proto.HTTP10 ∨ seen.Upgrade = Proto.HTTP11 then
    (seen.Upgrade, d.preWrite F seen.Proto (switching pre seen), switching pre seen)
  else (seen.Proto, d, pre)

/-- The error by which the router learns that the connection is being closed. -/
abbrev closeError : GoErr := .http Status.ErrCloseConnection

/-- The router, in the state `st`, called with `seen` and `world`, does `act` to the connection: `act` is its answer (the
response, and the request object as the handler leaves it; `none` after a panic) and what it leaves of the
connection. -/
def Answers (E : Setup σ ρ) (st : ρ) (seen : Request) (world : BC σ) (act : Option (Fields × Request) × Act.World σ) : Prop :=
  (E.router.onRequest st seen).1.run E.P E.maxAlloc { body := world.1, client := world.2, hijacked := false } = act

/-- The router, in the state `st`, is told about the error `e`, the request object being `seen`, and `act` is its answer and
what it leaves of the connection. -/
def Told (E : Setup σ ρ) (st : ρ) (seen : Request) (e : GoErr) (act : Option (Fields × Request) × Act.World σ) : Prop :=
  ∃ world : Act.World σ, world.hijacked = false ∧ (E.router.onError st seen e).1.run E.P E.maxAlloc world = act

/-- A conversation. `Conversation E T remote tail post End env st d pre ws ss vs frames why`: to the requests `ss`, sent one after
another, the calls `vs` of the router are the right ones, `frames` is what is to be written, and `why` the reason
why serving ends. `st` is the state of the router, `d` the serializer, `ws` are the results of the coming writes; `env`
is the environment of the first request. After the last request there comes `tail` and then `post`, and the
conversation goes on as `End` says.

The requests are taken in order; for each the router is called once. Serving goes on with the next one, unless the
handler panics or hijacks the connection, or the response cannot be written or is the last one (`Write` returns an
error). What is written is the router's answer to the request, before the next request is looked at, and nothing else,
unless by a handler which has hijacked the connection. -/
inductive Conversation (E : Setup σ ρ) (maxTokens : Nat) (remote : Bytes) (tail : Bytes)
    (post : List (Bytes × Option GoErr))
    (End : Environment → ρ → Serializer → Fields → List (Option GoErr) → List (Visit σ) → List Bytes → Ended → Prop) :
    Environment → ρ → Serializer → Fields → List (Option GoErr) → List Sending → List (Visit σ) → List Bytes → Ended → Prop
  | done {env st d pre ws vs frames why} : End env st d pre ws vs frames why →
      Conversation E maxTokens remote tail post End env st d pre ws [] vs frames why
  | panicked {env st d pre ws s ss seen world left frames} : Delivered E maxTokens remote post env s (ss.flatMap Sending.bytes ++ tail) seen world →
      Answers E st seen world (none, left) → left.client.written = world.2.written ++ frames →
      (left.hijacked = false → frames = []) →
      Conversation E maxTokens remote tail post End env st d pre ws (s :: ss) [.request seen world none left] frames .panicked
  | hijacked {env st d pre ws s ss seen world answer left frames} : Delivered E maxTokens remote post env s (ss.flatMap Sending.bytes ++ tail) seen world →
      Answers E st seen world (some answer, left) → left.client.written = world.2.written ++ frames →
      left.hijacked = true →
      Conversation E maxTokens remote tail post End env st d pre ws (s :: ss) [.request seen world (some answer) left] frames .hijacked
  | broken {env st d pre ws s ss seen world f req left w} : Delivered E maxTokens remote post env s (ss.flatMap Sending.bytes ++ tail) seen world →
      Answers E st seen world (some (f, req), left) → left.hijacked = false →
      w = Serializer.write E.F (opening E.F d pre seen).2.1 (opening E.F d pre seen).1 req f { wscript := ws } →
      w.out = .panic →
      Conversation E maxTokens remote tail post End env st d pre ws (s :: ss) [.request seen world (some (f, req)) left]
        w.client.written .panicked
  | closed {env st d pre ws s ss seen world f req left w e seen' ans left' more} :
      Delivered E maxTokens remote post env s (ss.flatMap Sending.bytes ++ tail) seen world →
      Answers E st seen world (some (f, req), left) → left.hijacked = false →
      w = Serializer.write E.F (opening E.F d pre seen).2.1 (opening E.F d pre seen).1 req f { wscript := ws } →
      w.out = .done (some e) → Told E (E.router.onRequest st seen).2 seen' closeError (ans, left') →
      (left'.hijacked = false → more = []) →
      Conversation E maxTokens remote tail post End env st d pre ws (s :: ss)
        [.request seen world (some (f, req)) left, .error seen' closeError ans left'] (w.client.written ++ more)
        (if ans.isSome then .writeFailed else .panicked)
  | next {env st d pre ws s ss seen world f req left w vs frames why} : Delivered E maxTokens remote post env s (ss.flatMap Sending.bytes ++ tail) seen world →
      Answers E st seen world (some (f, req), left) → left.hijacked = false →
      w = Serializer.write E.F (opening E.F d pre seen).2.1 (opening E.F d pre seen).1 req f { wscript := ws } →
      w.out = .done none →
      Conversation E maxTokens remote tail post End {} (E.router.onRequest st seen).2 w.ser (opening E.F d pre seen).2.2
        w.client.wscript ss vs frames why →
      Conversation E maxTokens remote tail post End env st d pre ws (s :: ss) (.request seen world (some (f, req)) left :: vs)
        (w.client.written ++ frames) why

/-- The state of a router after a history of requests. -/
def routerAfter (E : Setup σ ρ) (st : ρ) (history : List Request) : ρ :=
  history.foldl (fun st r => (E.router.onRequest st r).2) st

/-- The handlers of the router use the request's query only through its methods (so that there are parameters only after
parsing, see `queryRun_inv`), and leave the remote address and the protocol alone. -/
def Tame (E : Setup σ ρ) (st : ρ) : Prop :=
  ∀ history req w f req', (req.Query.parsed = false → req.Query.params.pairs = []) →
    ((E.router.onRequest (routerAfter E st history) req).1.run E.P E.maxAlloc w).1 = some (f, req') →
    (req'.Query.parsed = false → req'.Query.params.pairs = []) ∧ req'.Remote = req.Remote ∧ req'.Proto = req.Proto

/-- The client sends nothing more: the connection is closed, fails or times out. -/
def Silent (post : List (Bytes × Option GoErr)) : Prop := ∀ ev, post.head? = some ev → ev.2 ≠ none

/-- End of a conversation by silence of the client: the router is told that the connection is being closed, and its
answer is not written. -/
def Silence (E : Setup σ ρ) (_ : Environment) (st : ρ) (_ : Serializer) (_ : Fields) (_ : List (Option GoErr)) (vs : List (Visit σ))
    (frames : List Bytes) (why : Ended) : Prop :=
  ∃ seen ans left, vs = [.error seen closeError ans left] ∧ Told E st seen closeError (ans, left) ∧ (left.hijacked = false → frames = []) ∧
    why = if ans.isSome then .readFailed else .panicked

/-- End of a conversation by a crash of the server: nothing is said to the router and nothing is written. -/
def Crash (_ : Environment) (_ : ρ) (_ : Serializer) (_ : Fields) (_ : List (Option GoErr)) (vs : List (Visit σ))
    (frames : List Bytes) (why : Ended) : Prop :=
  vs = [] ∧ frames = [] ∧ why = .panicked

/-- `m` is the method named at the beginning of `bad`, if it is one the server knows, and otherwise it is the unknown one. -/
def NamesMethod (bad : Bytes) (m : Method) : Prop :=
  ∃ name rest, bad = name ++ 32 :: rest ∧ 32 ∉ name ∧ name ≠ [] ∧
    ((m ≠ .Unknown ∧ name = methodName m) ∨ (m = .Unknown ∧ ∀ k : Method, k ≠ .Unknown → name ≠ methodName k))

/-- What the request object says after the rejection of the head at the beginning of `bad` with the error `e`: its version is one which
the server supports (if it has not got as far as the version, the one of the last request), unless just this is the error; its method is the one named in `bad`,
if the server has got as far as that; the remote address is the right one; there are no path variables, and no values in the context; and if `e` is the error for the first fault of the head, everything else is as far as the fault in the way
`ReadSoFar` describes (the limits are `L`, at most `maxTokens` encodings are kept); if the request line is too long, there are neither headers nor a query. -/
structure AtFault (F : Fold) (L : Limits) (maxTokens : Nat) (bad remote : Bytes) (e : Status.HTTPError) (seen : Request) : Prop where
  version : e ≠ Status.ErrUnsupportedProtocol → ∃ v, versionName seen.Proto = some v
  method : e ≠ Status.ErrTooLongRequestLine → ∀ m, NamesMethod bad m → seen.Method = m
  remote : seen.Remote = remote
  params : seen.Params.pairs = []
  ctx : seen.Ctx = []
  read : RequestLineFits L.line bad → CleanStream bad → HeadFault L bad e → ReadSoFar F L maxTokens bad e seen
  long : 7 ≤ L.line → LongLine L.line bad → NoHeaders seen ∧ seen.Query.raw = [] ∧ seen.Query.params.pairs = []

/-- End of a conversation by a head, at the beginning of `bad`, rejected with the error `e`: the router is told so, once, and its answer is
written. (`more` is what the error handler writes after hijacking the connection.) -/
def Rejection (E : Setup σ ρ) (L : Limits) (maxTokens : Nat) (remote bad : Bytes) (e : Status.HTTPError) (env : Environment) (st : ρ) (d : Serializer) (_ : Fields)
    (ws : List (Option GoErr)) (vs : List (Visit σ)) (frames : List Bytes) (why : Ended) : Prop :=
  ∃ seen ans left more, AtFault E.F L maxTokens bad remote e seen ∧ seen.Env = env ∧ Told E st seen (.http e) (ans, left) ∧ vs = [.error seen (.http e) ans left] ∧
    (left.hijacked = false → more = [] ∧ left.client.wscript = ws) ∧
    match ans with
    | none => frames = more ∧ why = .panicked
    | some (f, req) => ∃ w, w = Serializer.write E.F d req.Proto req f { wscript := left.client.wscript } ∧
        frames = more ++ w.client.written ∧ why = if w.out = .panic then .panicked else .rejected

end Indigo.Spec
