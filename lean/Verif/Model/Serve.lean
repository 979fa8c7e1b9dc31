/-
Model of internal/protocol/http1/suit.go, http/serve/http1.go and the life cycle part of http/request.go.
-/
import Verif.Model.Virtual
import Verif.Model.Parser
import Verif.Model.Body
import Verif.Model.Serializer
import Verif.Model.Config

namespace Indigo

/-! ### Handlers -/

/-- What a handler (or an error handler) may do: a tree of interactions with the connection. It looks at and changes
the request and the response as values; here are the operations which reach the connection: calls on the body,
`Request.Hijack`, and the hijacked client. Closing the hijacked client and using the underlying `net.Conn` directly
are left out, as are goroutines started by a handler. An answer `Answer.panic` of the body is a panic which passes
through the handler unless it recovers; see `Act.call`. -/
inductive Act (α : Type) : Type
  | ret (a : α)
  | body (k : Body.Call) (next : Body.Answer → Act α)
  | hijack (next : Option GoErr → Act α)
  | read (next : Bytes → Option GoErr → Act α)
  | unread (b : Bytes) (next : Act α)
  | write (b : Bytes) (next : Option GoErr → Act α)
  | panic

namespace Act

/-- Sequential composition. -/
def bind {α β : Type} (x : Act α) (f : α → Act β) : Act β :=
  match x with
  | ret a => f a
  | body k next => body k (fun r => (next r).bind f)
  | hijack next => hijack (fun r => (next r).bind f)
  | read next => read (fun d e => (next d e).bind f)
  | unread b next => unread b (next.bind f)
  | write b next => write b (fun r => (next r).bind f)
  | panic => panic

instance : Monad Act where
  pure := ret
  bind := bind

/-- A call on the body, by a handler which does not recover from panics. -/
def call (k : Body.Call) : Act Body.Answer :=
  body k (fun a => match a with
    | .panic => panic
    | a => ret a)

/-- What handlers work on: the body, the client and `Request.wasHijacked`. -/
structure World (σ : Type) where
  body : Body σ
  client : Client
  hijacked : Bool

/-- Run of a handler. `none` is a panic. The client is given away only by a successful `Hijack`, so that before
operations on it do not exist; they are ignored. http/request.go:152-160 `Hijack`. -/
def run {σ α : Type} (P : ChunkedParser σ) (maxAlloc : Nat) : Act α → World σ → Option α × World σ
  | ret a, w => (some a, w)
  | body k next, w =>
    let (a, s) := Body.call P maxAlloc (w.body, w.client) k
    run P maxAlloc (next a) { w with body := s.1, client := s.2 }
  | hijack next, w =>
    let (e, s) := Body.discard P (Body.fuel (w.body, w.client)) (w.body, w.client)
    run P maxAlloc (next e) { body := s.1, client := s.2, hijacked := w.hijacked || e.isNone }
  | read next, w =>
    if w.hijacked then
      let ((d, e), c) := w.client.read
      run P maxAlloc (next d e) { w with client := c }
    else run P maxAlloc (next [] none) w
  | unread b next, w => run P maxAlloc next (if w.hijacked then { w with client := w.client.unread b } else w)
  | write b next, w =>
    if w.hijacked then
      let (e, c) := w.client.write b
      run P maxAlloc (next e) { w with client := c }
    else run P maxAlloc (next none) w
  | panic, w => (none, w)

end Act

/-! ### The request between two requests -/

/-- http/request.go:175-184: what `Clear` does to the request object after the body has been discarded. (`Method`,
`Path`, `Proto`, `Remote`, `wasHijacked` and the cookie jar are not mentioned there.) -/
def Request.reset (r : Request) : Request :=
  { r with
    Query := r.Query.set []
    Params := r.Params.clear
    Headers := r.Headers.clear
    ContentLength := 0
    Encoding := {}
    ContentType := []
    Connection := []
    Upgrade := Proto.Unknown
    Ctx := []
    Env := {} }

namespace Serve
open Serializer (Written)

/-- The router of the server and the external parts. -/
structure Setup (σ ρ : Type) where
  F : Fold
  P : ChunkedParser σ
  maxAlloc : Nat
  router : RouterImpl Act ρ

/-- A call of the router, for the record: the request it was given, and the body and the connection at this moment;
`answer` is the response with the request object the handler leaves behind, `none` after a panic; `left` is what it
leaves of the connection. -/
inductive Visit (σ : Type)
  | request (seen : Request) (world : BC σ) (answer : Option (Fields × Request)) (left : Act.World σ)
  | error (seen : Request) (err : GoErr) (answer : Option (Fields × Request)) (left : Act.World σ)

/-- internal/protocol/http1/suit.go:15-21 `Suit`, with the request (in the parser), its body and the client. `visits`
is a record of the calls of the router (not in the code). -/
structure Conn (σ ρ : Type) where
  parser : Parser.PState
  ser : Serializer
  body : Body σ
  client : Client
  upgradePreResp : Fields := Fields.new
  router : ρ
  visits : List (Visit σ) := []

/-- Why `serve` returned. -/
inductive Ended
  | readFailed
  | hijacked
  | writeFailed
  | clearFailed
  | rejected
  | panicked
  deriving DecidableEq, Repr

variable {σ ρ : Type}

/-- The state of the connection as a handler sees it. -/
def Conn.world (c : Conn σ ρ) : Act.World σ :=
  { body := c.body, client := c.client, hijacked := c.parser.req.wasHijacked }

/-- The request object. -/
abbrev Conn.req (c : Conn σ ρ) : Request := c.parser.req

/-- The connection after a call of the router: `router` is its new state, `req` what the handler made of the request
(after a panic nothing is known about it, and nothing depends on it). -/
def Conn.after (c : Conn σ ρ) (router : ρ) (req : Request) (w : Act.World σ) (v : Visit σ) : Conn σ ρ :=
  { c with
    parser := { c.parser with req := { req with wasHijacked := w.hijacked } }
    body := w.body
    client := w.client
    router
    visits := c.visits ++ [v] }

/-- `s.router.OnError(req, err)`: the response, or `none` after a panic. -/
def onError (E : Setup σ ρ) (c : Conn σ ρ) (e : GoErr) : Option Fields × Conn σ ρ :=
  let (act, router) := E.router.onError c.router c.req e
  match act.run E.P E.maxAlloc c.world with
  | (some (f, req), w) => (some f, c.after router req w (.error c.req e (some (f, req)) w))
  | (none, w) => (none, c.after router c.req w (.error c.req e none w))

/-- `s.router.OnRequest(req)`. -/
def onRequest (E : Setup σ ρ) (c : Conn σ ρ) : Option Fields × Conn σ ρ :=
  let (act, router) := E.router.onRequest c.router c.req
  match act.run E.P E.maxAlloc c.world with
  | (some (f, req), w) =>
    (some f, c.after router req w (.request c.req (c.body, c.client) (some (f, req)) w))
  | (none, w) => (none, c.after router c.req w (.request c.req (c.body, c.client) none w))

/-- internal/protocol/http1/suit.go:66-72, 99-110: the router is told that the connection is closed, whatever it
answers; `why` is the reason. -/
def closing (E : Setup σ ρ) (c : Conn σ ρ) (why : Ended) : Conn σ ρ × Option Ended :=
  match onError E c (.http Status.ErrCloseConnection) with
  | (some _, c) => (c, some why)
  | (none, c) => (c, some .panicked)

/-- internal/protocol/http1/suit.go:135-141 `trimLast`. -/
def trimLast (s : Bytes) : Bytes := s.take (s.length - 1)

/-- internal/protocol/http1/suit.go:79: the test on the requested upgrade. -/
def upgrades (req : Request) : Bool :=
  req.Upgrade ≠ Proto.Unknown && Proto.HTTP1 &&& req.Upgrade = req.Upgrade

/-- internal/protocol/http1/suit.go:78-88: the version of the response, and, for an upgrade, the preliminary response
put in front of it. The header keys are neither `Content-Type` nor `Transfer-Encoding`, so that `Header` does not
fail. -/
def preResponse (E : Setup σ ρ) (c : Conn σ ρ) : Proto × Conn σ ρ :=
  if upgrades c.req then
    let f := c.upgradePreResp.code Status.SwitchingProtocols
    let f := (f.header E.F b!"Connection" [b!"upgrade"]).getD f
    let f := (f.header E.F b!"Upgrade" [trimLast (Proto.toBytes c.req.Proto)]).getD f
    (c.req.Upgrade, { c with upgradePreResp := f, ser := c.ser.preWrite E.F c.req.Proto f })
  else (c.req.Proto, c)

/-- internal/protocol/http1/suit.go:106-110 with http/request.go:169-186 `Clear`. -/
def clearing (E : Setup σ ρ) (c : Conn σ ρ) : Conn σ ρ × Option Ended :=
  match Body.discard E.P (Body.fuel (c.body, c.client)) (c.body, c.client) with
  | (some _, (body, client)) => closing E { c with body, client } .clearFailed
  | (none, (body, client)) =>
    ({ c with body, client, parser := { c.parser with req := c.req.reset } }, none)

/-- internal/protocol/http1/suit.go:94-110: after the handler has returned `resp`. -/
def respond (E : Setup σ ρ) (version : Proto) (c : Conn σ ρ) (resp : Fields) : Conn σ ρ × Option Ended :=
  if c.req.wasHijacked then (c, some .hijacked)
  else
    let w := c.ser.write E.F version c.req resp c.client
    let c := { c with ser := w.ser, client := w.client }
    match w.out with
    | .panic => (c, some .panicked)
    | .done (some _) => closing E c .writeFailed
    | .done none => clearing E c

/-- internal/protocol/http1/suit.go:77-110: a complete head has been received. `nil` responses (notNil, lines
127-133) are the same as `http.Respond(req)`, which the model takes to be done by the handler. -/
def headersCompleted (E : Setup σ ρ) (c : Conn σ ρ) (extra : Bytes) : Conn σ ρ × Option Ended :=
  let (version, c) := preResponse E c
  let c := { c with client := c.client.unread extra, body := c.body.initFor c.req }
  match onRequest E c with
  | (none, c) => (c, some .panicked)
  | (some resp, c) => respond E version c resp

/-- internal/protocol/http1/suit.go:111-116: the parser has reported an error. -/
def rejecting (E : Setup σ ρ) (c : Conn σ ρ) (e : Status.HTTPError) : Conn σ ρ × Option Ended :=
  match onError E c (.http e) with
  | (none, c) => (c, some .panicked)
  | (some resp, c) =>
    let w := c.ser.write E.F c.req.Proto c.req resp c.client
    ({ c with ser := w.ser, client := w.client }, some (match w.out with
      | .panic => .panicked
      | .done _ => .rejected))

/-- internal/protocol/http1/suit.go:65-124: one iteration of the loop of `serve`; `none` means that it goes on
(`ServeOnce` returns true). -/
def step (E : Setup σ ρ) (c : Conn σ ρ) : Conn σ ρ × Option Ended :=
  match c.client.read with
  | ((_, some _), client) => closing E { c with client } .readFailed
  | ((data, none), client) =>
    match Parser.parse E.F c.parser data with
    | (parser, .pending) => ({ c with parser, client }, none)
    | (parser, .completed extra) => headersCompleted E { c with parser, client } extra
    | (parser, .error e) => rejecting E { c with parser, client } e
    | (parser, .panic) => ({ c with parser, client }, some .panicked)

/-- internal/protocol/http1/suit.go:57-59, 61-125 `Serve`. Each iteration makes the input shorter, so that
`Client.size + 1` iterations are enough (`serve_ends`); `none` is the exhaustion of the fuel. -/
def serveLoop (E : Setup σ ρ) : Nat → Conn σ ρ → Conn σ ρ × Option Ended
  | 0, c => (c, none)
  | fuel + 1, c =>
    match step E c with
    | (c, some why) => (c, some why)
    | (c, none) => serveLoop E fuel c

def serve (E : Setup σ ρ) (c : Conn σ ρ) : Conn σ ρ × Option Ended := serveLoop E (c.client.size + 1) c

/-- http/serve/http1.go:14-21 `HTTP1` up to the call of `Serve`, with http/request.go:77-95 `NewRequest`,
internal/protocol/http1/suit.go:23-51 and internal/construct/constructors.go. The size of the buffer for
attachments is `cfg.HTTP.ResponseBuffSize`. -/
def newConn (P : ChunkedParser σ) (cfg : Config) (enc : EncToken) (remote : Bytes) (router : ρ) (client : Client) : Conn σ ρ :=
  let parser := Parser.new
    { maxNumber := cfg.headersNumberMaximal.toNat
      maxValueLength := cfg.headersMaxValueLength.toNat
      maxKeyLength := cfg.headersMaxKeyLength.toNat
      maxEncodingTokens := cfg.maxEncodingTokens.toNat }
    cfg.urlBufferMaximal.toNat cfg.keySpaceMaximal.toNat cfg.valueSpaceMaximal.toNat
  { parser := { parser with req := { Remote := remote, Env := { Encryption := enc } } }
    ser := Serializer.new cfg.responseBuffSize (cfg.defaultHeaders.getD [])
    body := Body.new P cfg.bodyMaxSize.toNat
    client, router }

end Serve
end Indigo
