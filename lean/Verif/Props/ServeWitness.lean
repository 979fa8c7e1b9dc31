/-
Concrete connections: the hypotheses of the theorems about conversations are met (C22, C23, C32, C50, C70), and where the
properties C23, C32, C45, C50 and C56 fail.
-/
import Verif.Props.Serve2
import Verif.Props.Hijack
import Verif.Model.Middleware

namespace Indigo.Props
open Indigo.Serve Indigo.Spec

theorem ref_decodesChunked : DecodesChunked refParser :=
  ⟨refDecoding, ref_decodes, fun t _ _ after h => crun_coding t h after⟩

/-- A server with a handler and an error handler (router/simple). -/
def simple : Setup CS (Simple.Router Act) :=
  { F := Fold.ascii, P := refParser, maxAlloc := 2 ^ 32, router := Simple.impl Act }

/-- A handler which reports the path and the body of the request. -/
def report : Router.Handler Act := fun r => do
  match ← Act.call .bytes with
  | .whole d _ => pure (Fields.new.bytes (r.Path ++ b!" " ++ d.getD []), r)
  | _ => pure (Fields.new.code 500, r)

/-- An error handler which answers with the code and the text of the error, as the built-in router does. -/
def reportError : Router.Handler Act := fun r => pure (match r.Env.Error with
  | some (.http e) => (Fields.new.code e.Code).bytes e.Message
  | _ => Fields.new.code 500, r)

/-- A connection on which the given segments arrive. -/
def arrive (segments : List Bytes) : Client := { conn := segments.map (fun d => (d, none)) }

/-- What is written on a connection from 1.2.3.4 with the encryption token `enc`, on which the given segments arrive, and
how serving ends. -/
def exchange (handler : Router.Handler Act) (enc : EncToken) (segments : List Bytes) : List Bytes × Option Ended :=
  let r := serve simple (newConn simple.P Config.default enc b!"1.2.3.4" ⟨handler, reportError⟩ (arrive segments))
  (r.1.client.written, r.2)

/-! ### The hypotheses of the theorems about conversations -/

/-- `POST /a HTTP/1.1` with a body of five bytes. -/
def posted : Sending where
  head := { method := .POST, target := b!"/a", query := none, version := b!"HTTP/1.1", crlf := true,
            fields := [⟨b!"Content-Length", 1, b!"5", true⟩], lastCrlf := true }
  path := b!"/a"
  body := b!"hello"
  coded := b!"hello"

/-- `POST /b%20c HTTP/1.1` with a body of five bytes, in two chunks. -/
def chunked : Sending where
  head := { method := .POST, target := b!"/b%20c", query := none, version := b!"HTTP/1.1", crlf := true,
            fields := [⟨b!"transfer-encoding", 0, b!"chunked", true⟩], lastCrlf := true }
  path := b!"/b c"
  body := b!"hello"
  coded := b!"2\r\nhe\r\n3\r\nllo\r\n0\r\n\r\n"

/-- `GET / HTTP/1.0`, and the connection is to be kept. -/
def gotten : Sending where
  head := { method := .GET, target := b!"/", query := some b!"q", version := b!"HTTP/1.0", crlf := false,
            fields := [⟨b!"Connection", 1, b!"keep-alive", false⟩], lastCrlf := false }
  path := b!"/"
  body := []
  coded := []

example : posted.bytes = b!"POST /a HTTP/1.1\r\nContent-Length: 5\r\n\r\nhello" := by decide
example : chunked.bytes = b!"POST /b%20c HTTP/1.1\r\ntransfer-encoding:chunked\r\n\r\n2\r\nhe\r\n3\r\nllo\r\n0\r\n\r\n" := by decide
example : gotten.bytes = b!"GET /?q HTTP/1.0\nConnection: keep-alive\n\n" := by decide

theorem pct_lit : ∀ {s : Bytes}, 37 ∉ s → Unescapes s s
  | [], _ => .nil
  | c :: s, h => .lit (fun e => h (by simp [e])) (pct_lit (fun m => h (List.mem_cons_of_mem _ m)))

theorem posted_ok : SendableWith Fold.ascii Config.default posted where
  ok := ⟨by decide, by decide, by simp [posted], ⟨⟨_, 46, .inr (.inl ⟨rfl, rfl⟩)⟩, by decide, by decide⟩, by
    simp only [posted, List.mem_singleton, forall_eq]
    exact ⟨by decide, by decide, by decide, by decide, by decide, fun _ => by decide⟩⟩
  clean := by unfold Head.CleanNames; decide
  noBareEmpty := by unfold Head.NoBareEmpty; decide
  fits := ⟨by decide +kernel, by decide +kernel, by decide +kernel, by decide +kernel, by decide +kernel⟩
  path := pct_lit (by decide)
  framed := .sized (by decide +kernel) rfl (by decide)
  body := by decide +kernel

theorem chunked_ok : SendableWith Fold.ascii Config.default chunked where
  ok := ⟨by decide, by decide, by simp [chunked], ⟨⟨_, 46, .inr (.inl ⟨rfl, rfl⟩)⟩, by decide, by decide⟩, by
    simp only [chunked, List.mem_singleton, forall_eq]
    exact ⟨by decide, by decide, by decide, by decide, by decide, by decide⟩⟩
  clean := by unfold Head.CleanNames; decide
  noBareEmpty := by unfold Head.NoBareEmpty; decide
  fits := ⟨by decide +kernel, by decide +kernel, by decide +kernel, by decide +kernel, by decide +kernel⟩
  path := .lit (by decide) (.lit (by decide) (.esc (.lit (by decide) .nil)))
  framed := .chunked [b!"he", b!"llo"] (by decide +kernel)
    (.chunk (ds := b!"2") (by decide) (by decide) (.chunk (ds := b!"3") (by decide) (by decide) (.last (ds := b!"0") (by decide)))) rfl
  body := by decide +kernel

theorem gotten_ok : SendableWith Fold.ascii Config.default gotten where
  ok := ⟨by decide, by decide, by intro q h; cases h; decide, ⟨⟨_, 46, .inl ⟨rfl, rfl⟩⟩, by decide, by decide⟩, by
    simp only [gotten, List.mem_singleton, forall_eq]
    exact ⟨by decide, by decide, by decide, by decide, by decide, by decide⟩⟩
  clean := by unfold Head.CleanNames; decide
  noBareEmpty := by unfold Head.NoBareEmpty; decide
  fits := ⟨by decide +kernel, by decide +kernel, by decide +kernel, by decide +kernel, by decide +kernel⟩
  path := pct_lit (by decide)
  framed := .sized (by decide +kernel) rfl (by decide)
  body := by decide +kernel

theorem simple_state (st : Simple.Router Act) (history : List Request) : routerAfter simple st history = st := by
  unfold routerAfter
  induction history with
  | nil => rfl
  | cons r rs ih => exact ih

/-- The handlers of the examples are tame: `report` gives back the request as it is. -/
theorem report_tame : Tame simple ⟨report, reportError⟩ := by
  intro history req w f req' hq hr
  rw [simple_state] at hr
  have : req' = req := by
    change (Act.run refParser (2 ^ 32) (report req) w).1 = _ at hr
    change (Act.run refParser (2 ^ 32) (Act.bind (Act.body .bytes _) _) w).1 = _ at hr
    simp only [Act.bind, Act.run] at hr
    generalize (Body.call refParser (2 ^ 32) (w.body, w.client) Body.Call.bytes) = a at hr
    obtain ⟨a, s⟩ := a
    cases a <;> simp [Act.bind, Act.run, Pure.pure] at hr <;> exact hr.2.symm
  subst this
  exact ⟨hq, rfl, rfl⟩

/-- C22, C23: the hypotheses are met by three requests, cut into segments somehow, and what is written is this. -/
example : ∃ cl : Client, Quiet cl ∧ cl.stream = [posted, chunked, gotten].flatMap Sending.bytes ∧
    (∀ s ∈ [posted, chunked, gotten], SendableWith simple.F Config.default s) ∧ Silent [] ∧
    (serve simple (newConn simple.P Config.default 1 b!"1.2.3.4" ⟨report, reportError⟩ (followedBy cl []))).1.client.written = [
      b!"HTTP/1.1 200 OK\r\nAccept-Encodings: identity\r\nContent-Type: text/html\r\nContent-Length: 8\r\n\r\n/a hello",
      b!"HTTP/1.1 200 OK\r\nAccept-Encodings: identity\r\nContent-Type: text/html\r\nContent-Length: 10\r\n\r\n/b c hello",
      b!"HTTP/1.0 200 OK\r\nAccept-Encodings: identity\r\nContent-Type: text/html\r\nContent-Length: 2\r\n\r\n/ "] := by
  refine ⟨arrive [posted.bytes.take 41, posted.bytes.drop 41 ++ chunked.bytes.take 55, chunked.bytes.drop 55 ++ gotten.bytes],
    ?_, by decide +kernel, ?_, by simp [Silent], by decide +kernel⟩
  · unfold Quiet; decide +kernel
  · intro s hs
    simp only [List.mem_cons, List.not_mem_nil, or_false] at hs
    rcases hs with rfl | rfl | rfl
    · exact posted_ok
    · exact chunked_ok
    · exact gotten_ok

/-- C32, C69: faults of the kinds listed in `HeadFault`, and their codes. -/
example : HeadFault (headLimits Config.default) b!"GOT / HTTP/1.1\r\n\r\n" Status.ErrMethodNotImplemented ∧
    Status.ErrMethodNotImplemented.Code = 501 :=
  ⟨.line b!"GOT" b!"/ HTTP/1.1\r" b!"\r\n" _ (by decide) (by decide) (by decide +kernel)
    (.unknownMethod _ _ (by decide) (by intro k; cases k <;> decide)), rfl⟩

example : HeadFault (headLimits Config.default) b!"GET /\r\n\r\n" Status.ErrBadRequest :=
  .line (methodName .GET) b!"/\r" b!"\r\n" _ (by decide) (by decide) (by decide +kernel) (.noVersion .GET _ (by decide) (by decide))

/-- The head of `gotten` without its fields. -/
def bare : Head := { gotten.head with fields := [], crlf := true }

theorem bare_ok : bare.OK :=
  ⟨by decide, by decide, by intro q h; cases h; decide, ⟨⟨_, 46, .inl ⟨rfl, rfl⟩⟩, by decide, by decide⟩, by simp [bare]⟩

theorem bare_escapable : Escapable bare.target := .lit (by decide) .nil

example : HeadFault (headLimits Config.default) b!"GET /?q HTTP/1.0\r\nA: b\r\ncontent-LENGTH: 5x\r\n\r\n" Status.ErrBadRequest :=
  .fields bare _ _ bare_ok bare_escapable (by decide +kernel)
    (.next ⟨b!"A", 1, b!"b", true⟩ _ _ ⟨by decide, by decide, by decide, by decide, by decide, by decide⟩ (by decide)
      (by decide) (by decide +kernel) (by decide +kernel) (by decide +kernel)
      (.length b!"content-LENGTH" b!" 5" 120 b!"\r\n\r\n" (by decide) (by decide) (by decide) (by decide +kernel)
        (by decide +kernel) (by decide) (by decide) (by decide) (by decide) (by decide) (by decide)))

/-! ### C23, C45: what requests are said to come from -/

/-- A handler which changes the remote address of the request object, and one which reports it. -/
def renamed : Router.Handler Act := fun r => pure (Fields.new.bytes r.Remote, { r with Remote := b!"9.9.9.9" })

/-- **C23** is false if a handler changes the remote address: `Clear` does not restore it. The second request is said to
come from the address set while the first one was handled. -/
theorem C23_remote_violation :
    (exchange renamed 0 [b!"GET / HTTP/1.1\r\n\r\n", b!"GET / HTTP/1.1\r\n\r\n"]).1.map (fun b => b.drop (b.length - 7)) =
      [b!"1.2.3.4", b!"9.9.9.9"] := by decide +kernel

/-- **C45** is false: on an encrypted connection (token 1, TLS), behind HTTPSOnly, the first request reaches the handler,
and the same request sent again is redirected to the address it was sent to. -/
theorem C45_second_request_violation :
    exchange (Middleware.httpsOnly Fold.ascii [] report) 1
      [b!"GET / HTTP/1.1\r\nHost: a\r\n\r\n", b!"GET / HTTP/1.1\r\nHost: a\r\n\r\n"] = ([
      b!"HTTP/1.1 200 OK\r\nAccept-Encodings: identity\r\nContent-Type: text/html\r\nContent-Length: 2\r\n\r\n/ ",
      b!"HTTP/1.1 301 Moved Permanently\r\nLocation: https://a:/\r\nAccept-Encodings: identity\r\nContent-Type: text/html\r\nContent-Length: 0\r\n\r\n"],
      some .readFailed) := by decide +kernel

/-! ### C32: the error response -/

/-- **C32** is false for an unsupported version of the protocol: the error response has no version in its status line, so
that it is no response at all. -/
theorem C32_version_violation :
    let r := exchange report 0 [b!"GET / HTTP/3.0\r\n\r\n"]
    r.1.map (fun b => b.take 32) = [b!"505 HTTP Version Not Supported\r\n"] ∧ r.1.map readMsg = [none] ∧
      r.2 = some .rejected := by decide +kernel

/-! ### C50: hijacking in an error handler -/

/-- An error handler which hijacks the connection and writes to it. -/
def seize : Router.Handler Act := fun r =>
  .hijack fun _ => .write b!"mine" fun _ => .ret (Fields.new, r)

/-- **C50** is false of error handlers: after an error handler called for a malformed request has hijacked the
connection, the server still writes its response. -/
theorem C50_error_handler_violation :
    let r := serve simple (newConn simple.P Config.default 0 b!"1.2.3.4" ⟨report, seize⟩ (arrive [b!"GOT / HTTP/1.1\r\n\r\n"]))
    r.1.client.written = [b!"mine",
      b!"HTTP/1.1 200 OK\r\nAccept-Encodings: identity\r\nContent-Type: text/html\r\nContent-Length: 0\r\n\r\n"] ∧
    r.1.req.wasHijacked = true := by decide +kernel

/-- The same in a handler (C50, non-vacuity): nothing else is written, and what follows the request is read. -/
def take : Router.Handler Act := fun r =>
  .hijack fun _ => .read fun d _ => .write (b!"got " ++ d) fun _ => .ret (Fields.new, r)

example : exchange take 0 [b!"POST / HTTP/1.1\r\nContent-Length: 3\r\n\r\nab", b!"cdef"] = ([b!"got def"], some .hijacked) := by
  decide +kernel

/-! ### C56: the 101 response -/

/-- **C56** is false of the 101 response: it names the version of the request, not the one switched to. The request asks
for HTTP/1.0 and the response after the 101 is in HTTP/1.0, but the 101 says that the connection is upgraded to HTTP/1.1. -/
theorem C56_names_old_protocol_violation :
    exchange report 0 [b!"GET / HTTP/1.1\r\nUpgrade: HTTP/1.0\r\n\r\n"] = ([
      b!"HTTP/1.1 101 Switching Protocol\r\nConnection: upgrade\r\nUpgrade: HTTP/1.1\r\nAccept-Encodings: identity\r\nContent-Type: text/html\r\n\r\nHTTP/1.0 200 OK\r\nAccept-Encodings: identity\r\nContent-Type: text/html\r\nContent-Length: 2\r\n\r\n/ "],
      some .readFailed) := by decide +kernel

/-- **C56** is false of further 101 responses: the headers of the earlier ones are repeated in them. -/
theorem C56_headers_pile_up_violation :
    (exchange report 0 [b!"GET / HTTP/1.1\r\nUpgrade: HTTP/1.0\r\n\r\n", b!"GET / HTTP/1.1\r\nUpgrade: HTTP/1.0\r\n\r\n"]).1.map
      (fun b => (readMsg b).map (fun m => (m.code, m.fields.map (·.1)))) = [
      some (101, [b!"Connection", b!"Upgrade", b!"Accept-Encodings", b!"Content-Type"]),
      some (101, [b!"Connection", b!"Upgrade", b!"Connection", b!"Upgrade", b!"Accept-Encodings", b!"Content-Type"])] := by
  decide +kernel

end Indigo.Props
