/-
Specification: how a client reads the responses to the requests it has sent on a connection, and handlers whose
responses it can read.
-/
import Verif.Spec.Serve
import Verif.Spec.Response
import Verif.Spec.Chunked

namespace Indigo.Spec
open Serve (Setup)
variable {σ ρ : Type}

/-- Responses which have no body, whatever their header says (RFC 7230, 3.3.3). -/
def bodiless (m : Method) (code : Nat) : Bool :=
  m = .HEAD || (100 ≤ code && code < 200) || code = 204 || code = 304

/-- The fields which say where a body ends. -/
def framingFields (fs : List (Bytes × Bytes)) : List (Bytes × Bytes) :=
  fs.filter (fun kv => lower kv.1 == b!"content-length" || lower kv.1 == b!"transfer-encoding")

/-- Reading one response, to a request with the method `m`: the message with its body as `rest`, and the bytes after it. The
body is delimited by the only Content-Length, or is in the chunked coding, which clients of HTTP/1.0 do not know. -/
def readReply (m : Method) (s : Bytes) : Option (Msg × Bytes) :=
  match readMsg s with
  | none => none
  | some msg =>
    if bodiless m msg.code then some ({ msg with rest := [] }, msg.rest)
    else match framingFields msg.fields with
      | [(k, v)] =>
        if lower k = b!"transfer-encoding" then
          if lower v = b!"chunked" ∧ msg.version ≠ b!"HTTP/1.0" then
            (crun false (.size 0 false) msg.rest).map fun r => ({ msg with rest := r.1 }, r.2)
          else none
        else
          match readDecimal v with
          | some n => if n ≤ msg.rest.length then some ({ msg with rest := msg.rest.take n }, msg.rest.drop n) else none
          | none => none
      | _ => none

/-- Reading the responses to requests with the given methods: nothing is left over. -/
def readReplies : List Method → Bytes → Option (List Msg)
  | [], s => if s = [] then some [] else none
  | m :: ms, s =>
    match readReply m s with
    | none => none
    | some (msg, rest) => (readReplies ms rest).map (msg :: ·)

/-- What the response `f` has to say: its attachment, if there is one, or its body. -/
def sentBody (f : Fields) : Bytes :=
  match f.Attachment.content with
  | none => f.Body
  | some r => readerData r

/-- A response, to a client with the protocol `p`, which says itself how long it is: nothing in it breaks lines, the application has set
no headers about framing, the code is a final one, and there is no body if the code forbids it. If there is an attachment, then it can be
read to its end, and either its size is the announced one (and `io.EOF` comes without data), or none is announced and the client knows the chunked coding. -/
structure Readable (defaults : List (Bytes × Bytes)) (p : Proto) (f : Fields) : Prop where
  clean : ResponseClean f
  attachment : ∀ r, f.Attachment.content = some r → readerEnd r = .eof ∧
    ((0 < f.Attachment.size ∧ f.Attachment.size = (readerData r).length ∧ EndsAlone r) ∨ (f.Attachment.size ≤ 0 ∧ p ≠ Proto.HTTP10))
  framing : (∀ h ∈ f.Headers, framingFields [(h.Key, h.Value)] = []) ∧ (∀ d ∈ defaults, framingFields [d] = []) ∧
    f.TransferEncoding = []
  final : 200 ≤ f.Code
  noBody : f.Code = 204 ∨ f.Code = 304 → f.Body = [] ∧ f.Attachment.content = none

/-- A router whose handlers answer every request satisfying `ok` with such a response, to be written in the version `version` of the request. They do not panic, do not hijack the connection,
and leave the method and the headers Connection and Upgrade of the request object alone. -/
structure AnsweringIn (version : Request → Proto) (E : Setup σ ρ) (ok : Sending → Prop) (maxTokens : Nat) (defaults : List (Bytes × Bytes)) (st : ρ) : Prop where
  request : ∀ history remote post env s after req world, ok s → Delivered E maxTokens remote post env s after req world →
    ∃ f req' left, Answers E (routerAfter E st history) req world (some (f, req'), left) ∧
      left.hijacked = false ∧ Readable defaults (version req) f ∧ req'.Method = req.Method ∧ req'.Connection = req.Connection ∧
      req'.Upgrade = req.Upgrade
  error : ∀ history req e (world : Act.World σ), world.hijacked = false →
    ((E.router.onError (routerAfter E st history) req e).1.run E.P E.maxAlloc world).2.hijacked = false

/-- The same, with responses in the version the request was sent in. -/
abbrev Answering (E : Setup σ ρ) (ok : Sending → Prop) (maxTokens : Nat) (defaults : List (Bytes × Bytes)) (st : ρ) : Prop :=
  AnsweringIn Request.Proto E ok maxTokens defaults st

/-- A request after which the connection is to be kept, and which does not ask for another protocol. -/
structure KeepsOpen (h : Head) : Prop where
  upgrade : h.last b!"upgrade" = none
  connection : ∀ p, IsVersion h.version p → persists p ((h.last b!"connection").getD []) = true
  /-- no bytes which only special case folding (of the Kelvin sign, for instance) makes letters -/
  token : ∀ c ∈ (h.last b!"connection").getD [], isPlainTok c = true

/-- The header fields of a reply: those of the response `f`, in order; some of the default headers (see C27 for which); the type of its content; and then the
cookies, which are not written along with attachments (see C25), and how the body is delimited. -/
def SaysFields (defaults : List (Bytes × Bytes)) (f : Fields) (fields : List (Bytes × Bytes)) : Prop :=
  ∃ ds : List (Bytes × Bytes), ds.Sublist defaults ∧
    fields = (f.Headers.map (fun h => (h.Key, h.Value)) ++ ds ++ [(b!"Content-Type", f.ContentType)] ++
      (match f.Attachment.content with
       | none => f.Cookies.map (fun c => (b!"Set-Cookie", setCookieValue c)) ++ [(b!"Content-Length", decBytes f.Body.length)]
       | some _ =>
         if f.Attachment.size > 0 then [(b!"Content-Length", decBytes f.Attachment.size.toNat)]
         else [(b!"Transfer-Encoding", b!"chunked")])).map (fun kv => (kv.1, stripOWS kv.2))

/-- What the router was called with, for requests sent one after another: `history` is what was delivered for `before`. -/
def HeardBefore (E : Setup σ ρ) (maxTokens : Nat) (remote : Bytes) (post : List (Bytes × Option GoErr)) (before : List Sending) (history : List Request) : Prop :=
  history.length = before.length ∧ ∀ (j : Nat) s seen, before[j]? = some s → history[j]? = some seen →
    ∃ env after world, Delivered E maxTokens remote post env s after seen world

/-- The message `m` is the reply to the request `s`, sent after the requests `before`: the router was called with this request, after having been called with those, and its
answer, the response `f`, is what `m` says: the version is the one of the request, code, header fields and body (or attachment) are those of `f`. -/
def Replied (E : Setup σ ρ) (st : ρ) (defaults : List (Bytes × Bytes)) (before : List Sending) (maxTokens : Nat) (remote : Bytes) (post : List (Bytes × Option GoErr)) (s : Sending) (m : Msg) :
    Prop :=
  ∃ history env after seen world f req left, HeardBefore E maxTokens remote post before history ∧ Delivered E maxTokens remote post env s after seen world ∧
    Answers E (routerAfter E st history) seen world (some (f, req), left) ∧
    versionName seen.Proto = some m.version ∧ m.code = f.Code ∧
    m.rest = (if s.head.method = .HEAD then [] else sentBody f) ∧
    SaysFields defaults f m.fields

end Indigo.Spec
