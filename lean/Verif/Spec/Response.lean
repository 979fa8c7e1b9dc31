/-
Specification of responses: an independent reader of HTTP/1.x responses and of Set-Cookie values, and what a
response is expected to carry.
-/
import Verif.Model.Response
import Verif.Base.Num
import Verif.Spec.Head

namespace Indigo.Spec

/-! ### Reading a response -/

/-- Split at the first CR LF. -/
def cutCRLF : Bytes → Option (Bytes × Bytes)
  | [] => none
  | x :: xs =>
    if x = 13 ∧ xs.head? = some 10 then some ([], xs.tail)
    else (cutCRLF xs).map (fun r => (x :: r.1, r.2))

def isBlank (c : Byte) : Bool := c == 32 || c == 9

/-- Without spaces and tabs at either end. -/
def stripOWS (s : Bytes) : Bytes := ((s.dropWhile isBlank).reverse.dropWhile isBlank).reverse

/-- Header lines up to the empty line, and what follows it. A line is `name ":" OWS value OWS`. -/
def readFields : Nat → Bytes → Option (List (Bytes × Bytes) × Bytes)
  | 0, _ => none
  | n + 1, s =>
    match cutCRLF s with
    | none => none
    | some (line, rest) =>
      if line = [] then some ([], rest)
      else match cut 58 line with
        | none => none
        | some (k, v) => (readFields n rest).map (fun r => ((k, stripOWS v) :: r.1, r.2))

/-- A number in decimal digits. -/
def readDecimal (ds : Bytes) : Option Nat :=
  if ds ≠ [] ∧ ds.all isDigit then some (decimal ds) else none

/-- A response: version, status code, reason phrase, header fields, and the bytes after the head. -/
structure Msg where
  version : Bytes
  code : Nat
  reason : Bytes
  fields : List (Bytes × Bytes)
  rest : Bytes
  deriving DecidableEq, Repr

/-- `HTTP-version SP code SP reason CRLF fields CRLF rest`. -/
def readMsg (s : Bytes) : Option Msg :=
  match cutCRLF s with
  | none => none
  | some (line, rest) =>
    match cut 32 line with
    | none => none
    | some (version, line) =>
      match cut 32 line with
      | none => none
      | some (code, reason) =>
        if version.take 5 = b!"HTTP/" then
          match readDecimal code, readFields (s.length + 1) rest with
          | some code, some (fields, rest) => some { version, code, reason, fields, rest }
          | _, _ => none
        else none

/-! ### What a response is expected to carry -/

/-- No line breaks. -/
def NoBreak (s : Bytes) : Prop := 13 ∉ s ∧ 10 ∉ s

/-- A header name: neither line breaks nor a colon. -/
def NameOK (s : Bytes) : Prop := NoBreak s ∧ 58 ∉ s

/-- The attributes of a cookie as RFC 6265 names them. -/
def cookieAttrs (c : Cookie) : List (Bytes × Option Bytes) :=
  (if c.Path = [] then [] else [(b!"Path", some c.Path)]) ++
  (if c.Domain = [] then [] else [(b!"Domain", some c.Domain)]) ++
  (match c.Expires with | none => [] | some t => [(b!"Expires", some t)]) ++
  (if c.MaxAge = 0 then [] else [(b!"Max-Age", some (if c.MaxAge > 0 then decBytes c.MaxAge.toNat else b!"0"))]) ++
  (if c.SameSite = [] then [] else [(b!"SameSite", some c.SameSite)]) ++
  (if c.Secure then [(b!"Secure", none)] else []) ++
  (if c.HttpOnly then [(b!"HttpOnly", none)] else [])

/-- `name=value` or `name`. -/
def renderAttr : Bytes × Option Bytes → Bytes
  | (k, some v) => k ++ 61 :: v
  | (k, none) => k

/-- Joining with `; `. -/
def joinSemi : List Bytes → Bytes
  | [] => []
  | [a] => a
  | a :: as => a ++ [59, 32] ++ joinSemi as

/-- Splitting at every `;`. -/
def splitSemi : Bytes → List Bytes
  | [] => [[]]
  | c :: cs =>
    if c = 59 then [] :: splitSemi cs
    else match splitSemi cs with
      | [] => [[c]]
      | t :: ts => (c :: t) :: ts

/-- `name=value` at the first `=`; without `=` there is no value. -/
def readAttr (s : Bytes) : Bytes × Option Bytes :=
  match cut 61 s with
  | none => (s, none)
  | some (k, v) => (k, some v)

/-- Reading the value of a Set-Cookie header: elements separated by `;`, with white space around them removed. -/
def readSetCookie (s : Bytes) : List (Bytes × Option Bytes) := (splitSemi s).map (fun t => readAttr (stripOWS t))

/-- Fit for being an element of a Set-Cookie value: no `;`, no white space at the end. -/
def CookieText (s : Bytes) : Prop := 59 ∉ s ∧ ∀ c, s.getLast? = some c → isBlank c = false

/-- The attributes of the cookie survive the Set-Cookie syntax. -/
structure CookieOK (c : Cookie) : Prop where
  name : CookieText c.Name ∧ 61 ∉ c.Name ∧ (∀ x, c.Name.head? = some x → isBlank x = false)
  value : CookieText c.Value
  path : CookieText c.Path
  domain : CookieText c.Domain
  expires : ∀ t, c.Expires = some t → CookieText t
  sameSite : CookieText c.SameSite

/-- What the attribute list of a cookie is in this implementation: as `cookieAttrs`, but with `MaxAge`. -/
def writtenAttrs (c : Cookie) : List (Bytes × Option Bytes) :=
  (cookieAttrs c).map (fun a => if a.1 = b!"Max-Age" then (b!"MaxAge", a.2) else a)

/-- The value of the Set-Cookie header. -/
def setCookieValue (c : Cookie) : Bytes := joinSemi (((c.Name, some c.Value) :: writtenAttrs c).map renderAttr)

/-- The header fields of a response without attachment: its own headers in order, the default headers whose
names it does not set itself (nor have been set by `earlier` headers), Content-Type, Transfer-Encoding if set,
cookies and Content-Length. -/
def expectedFields (F : Fold) (defaults : List (Bytes × Bytes)) (earlier : List Pair) (f : Fields) :
    List (Bytes × Bytes) :=
  f.Headers.map (fun h => (h.Key, h.Value)) ++
  defaults.filter (fun d => !(earlier ++ f.Headers).any (fun h => F.eq d.1 h.Key)) ++
  [(b!"Content-Type", f.ContentType)] ++
  (if f.TransferEncoding = [] then [] else [(b!"Transfer-Encoding", f.TransferEncoding)]) ++
  f.Cookies.map (fun c => (b!"Set-Cookie", setCookieValue c)) ++
  [(b!"Content-Length", decBytes f.Body.length)]

/-- The header fields of a response with an attachment: as above, but framed by Content-Length if the size of
the attachment is known and by `Transfer-Encoding: chunked` otherwise, and without cookies. -/
def attachmentFields (F : Fold) (defaults : List (Bytes × Bytes)) (earlier : List Pair) (f : Fields) :
    List (Bytes × Bytes) :=
  f.Headers.map (fun h => (h.Key, h.Value)) ++
  defaults.filter (fun d => !(earlier ++ f.Headers).any (fun h => F.eq d.1 h.Key)) ++
  [(b!"Content-Type", f.ContentType)] ++
  (if f.Attachment.size > 0 then
    (if f.TransferEncoding = [] then [] else [(b!"Transfer-Encoding", f.TransferEncoding)]) ++
    [(b!"Content-Length", decBytes f.Attachment.size.toNat)]
  else [(b!"Transfer-Encoding", b!"chunked")])

/-- Default headers: names and values without line breaks, no two names equal up to case. -/
structure DefaultsOK (F : Fold) (defaults : List (Bytes × Bytes)) : Prop where
  clean : ∀ d ∈ defaults, NameOK d.1 ∧ NoBreak d.2
  distinct : defaults.Pairwise (fun a b => F.eq a.1 b.1 = false)

/-- A response free of line breaks in everything that goes into its head. -/
structure ResponseClean (f : Fields) : Prop where
  headers : ∀ h ∈ f.Headers, NameOK h.Key ∧ NoBreak h.Value
  contentType : NoBreak f.ContentType
  transferEncoding : NoBreak f.TransferEncoding
  cookies : ∀ c ∈ f.Cookies, NoBreak (setCookieValue c)

/-- The reason phrase written for a code. -/
def reasonFor (f : Fields) : Bytes :=
  if f.Status = [] ∧ f.Code = 101 then b!"Switching Protocol" else Status.Text f.Code

/-- The reason phrases of RFC 7231, RFC 2616 and their extensions. -/
def phrase : Nat → Option Bytes
  | 100 => some b!"Continue" | 101 => some b!"Switching Protocols" | 102 => some b!"Processing"
  | 103 => some b!"Early Hints"
  | 200 => some b!"OK" | 201 => some b!"Created" | 202 => some b!"Accepted"
  | 203 => some b!"Non-Authoritative Information" | 204 => some b!"No Content" | 205 => some b!"Reset Content"
  | 206 => some b!"Partial Content" | 207 => some b!"Multi-Status" | 208 => some b!"Already Reported"
  | 226 => some b!"IM Used"
  | 300 => some b!"Multiple Choices" | 301 => some b!"Moved Permanently" | 302 => some b!"Found"
  | 303 => some b!"See Other" | 304 => some b!"Not Modified" | 305 => some b!"Use Proxy"
  | 307 => some b!"Temporary Redirect" | 308 => some b!"Permanent Redirect"
  | 400 => some b!"Bad Request" | 401 => some b!"Unauthorized" | 402 => some b!"Payment Required"
  | 403 => some b!"Forbidden" | 404 => some b!"Not Found" | 405 => some b!"Method Not Allowed"
  | 406 => some b!"Not Acceptable" | 407 => some b!"Proxy Authentication Required"
  | 408 => some b!"Request Timeout" | 409 => some b!"Conflict" | 410 => some b!"Gone"
  | 411 => some b!"Length Required" | 412 => some b!"Precondition Failed"
  | 413 => some b!"Request Entity Too Large" | 414 => some b!"Request URI Too Long"
  | 415 => some b!"Unsupported Media Type" | 416 => some b!"Requested Range Not Satisfiable"
  | 417 => some b!"Expectation Failed" | 418 => some b!"I'm a teapot" | 421 => some b!"Misdirected Request"
  | 422 => some b!"Unprocessable Entity" | 423 => some b!"Locked" | 424 => some b!"Failed Dependency"
  | 425 => some b!"Too Early" | 426 => some b!"Upgrade Required" | 428 => some b!"Precondition Required"
  | 429 => some b!"Too Many Requests" | 431 => some b!"Request Header Fields Too Large"
  | 451 => some b!"Unavailable For Legal Reasons"
  | 500 => some b!"Internal Server Error" | 501 => some b!"Not Implemented" | 502 => some b!"Bad Gateway"
  | 503 => some b!"Service Unavailable" | 504 => some b!"Gateway Timeout"
  | 505 => some b!"HTTP Version Not Supported" | 506 => some b!"Variant Also Negotiates"
  | 507 => some b!"Insufficient Storage" | 508 => some b!"Loop Detected" | 510 => some b!"Not Extended"
  | 511 => some b!"Network Authentication Required"
  | _ => none

/-- Protocol names as they appear in a status line. -/
def versionName (p : Proto) : Option Bytes :=
  if p = Proto.HTTP10 then some b!"HTTP/1.0"
  else if p = Proto.HTTP11 then some b!"HTTP/1.1"
  else if p = Proto.HTTP2 then some b!"HTTP/2"
  else none

/-- Is a connection to be kept after a response to a request of this version, with this value of its Connection
header? -/
def persists (p : Proto) (connection : Bytes) : Bool :=
  (p = Proto.HTTP11 && lower connection != b!"close") || (p = Proto.HTTP10 && lower connection == b!"keep-alive")

/-! ### Readers -/

/-- Everything a reader yields, up to and including what comes with its first error. -/
def readerData : Reader → Bytes
  | [] => []
  | (d, none) :: rs => d ++ readerData rs
  | (d, some _) :: _ => d

/-- The error with which a reader ends. -/
def readerEnd : Reader → GoErr
  | [] => .eof
  | (_, none) :: rs => readerEnd rs
  | (_, some e) :: _ => e

/-- The reader returns its error on its own, without data. -/
def EndsAlone : Reader → Prop
  | [] => True
  | (_, none) :: rs => EndsAlone rs
  | (d, some _) :: _ => d = []

/-- Every coming write to the connection succeeds. -/
def NoWriteError (c : Client) : Prop := ∀ e ∈ c.wscript, e = none

end Indigo.Spec
