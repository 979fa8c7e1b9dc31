/-
Model of http/response.go, internal/response/fields.go, internal/types/attachment.go and http/cookie/cookie.go.
-/
import Verif.Model.Client
import Verif.Model.Storage

namespace Indigo

/-- http/cookie/cookie.go:5-19 `Cookie`. `Expires` is given as the text `Expires.In(gmt).Format(time.RFC1123)`
(standard library), `none` being the zero time. -/
structure Cookie where
  Name : Bytes
  Value : Bytes
  Path : Bytes := []
  Domain : Bytes := []
  Expires : Option Bytes := none
  MaxAge : Int := 0
  SameSite : Bytes := []
  Secure : Bool := false
  HttpOnly : Bool := false
  deriving DecidableEq, Repr

/-- An `io.Reader` with a finite life: what it returns, call by call. If more data are due than fit into the
buffer passed to `Read`, the rest (and the error) is returned by later calls. After the end it returns
`0, io.EOF`. Simplification: a reader does not depend on the size of the buffer otherwise, and does not use the
rest of the buffer as scratch space. -/
abbrev Reader := List (Bytes × Option GoErr)

/-- `io.Reader.Read` into a buffer of length `n`. -/
def Reader.read (n : Nat) : Reader → (Bytes × Option GoErr) × Reader
  | [] => (([], some .eof), [])
  | (d, e) :: rs => if d.length ≤ n then ((d, e), rs) else ((d.take n, none), (d.drop n, e) :: rs)

/-- internal/types/attachment.go:8-19 `Attachment`. -/
structure Attachment where
  content : Option Reader := none
  size : Int := 0
  deriving DecidableEq, Repr

/-- internal/response/fields.go:12-23 `Fields`. -/
structure Fields where
  Attachment : Indigo.Attachment := {}
  Headers : List Pair := []
  Body : Bytes := []
  Cookies : List Cookie := []
  Status : Bytes := []
  ContentType : Bytes := b!"text/html"
  TransferEncoding : Bytes := []
  Code : Indigo.Status.Code := Indigo.Status.OK
  deriving DecidableEq, Repr

namespace Fields

/-- internal/response/fields.go:25-34 `Clear`. -/
def clear (f : Fields) : Fields :=
  { f with Code := Status.OK, Status := [], ContentType := b!"text/html", TransferEncoding := [], Headers := [],
           Body := [], Cookies := [], Attachment := {} }

/-- http/response.go:35-43 `NewResponse`. -/
def new : Fields := { Code := Status.OK, Headers := [], ContentType := b!"text/html" }

/-- http/response.go:48-51 `Code`. -/
def code (f : Fields) (c : Status.Code) : Fields := { f with Code := c }

/-- http/response.go:56-59 `Status`. -/
def status (f : Fields) (s : Bytes) : Fields := { f with Status := s }

/-- http/response.go:62-65 `ContentType`. -/
def contentType (f : Fields) (v : Bytes) : Fields := { f with ContentType := v }

/-- http/response.go:68-71 `TransferEncoding`. -/
def transferEncoding (f : Fields) (v : Bytes) : Fields := { f with TransferEncoding := v }

/-- http/response.go:75-91 `Header`; `none` is the panic of `values[0]` without values. -/
def header (F : Fold) (f : Fields) (key : Bytes) (values : List Bytes) : Option Fields :=
  if F.eq key b!"content-type" then values.head?.map f.contentType
  else if F.eq key b!"transfer-encoding" then values.head?.map f.transferEncoding
  else some { f with Headers := f.Headers ++ values.map (fun v => ⟨key, v⟩) }

/-- http/response.go:97-105 `Headers`; the map in the order of its iteration. -/
def headers (F : Fold) (f : Fields) : List (Bytes × List Bytes) → Option Fields
  | [] => some f
  | (k, v) :: rest => (f.header F k v).bind (fun f => f.headers F rest)

/-- http/response.go:108-117 `String`, `Bytes`. -/
def bytes (f : Fields) (b : Bytes) : Fields := { f with Body := b }

/-- http/response.go:120-123 `Write`. -/
def write (f : Fields) (b : Bytes) : Fields := { f with Body := f.Body ++ b }

/-- http/response.go:163-166 `Attachment`. -/
def attachment (f : Fields) (r : Option Reader) (size : Int) : Fields := { f with Attachment := ⟨r, size⟩ }

/-- http/response.go:169-172 `Cookie`. -/
def cookie (f : Fields) (cs : List Cookie) : Fields := { f with Cookies := f.Cookies ++ cs }

/-- http/response.go:201-219 `Error`. `text` are the messages of errors (`err.Error()`). -/
def error (text : GoErr → Bytes) (f : Fields) (err : Option GoErr) (codes : List Status.Code) : Fields :=
  match err with
  | none => f
  | some (.http e) => f.code e.Code
  | some e => (f.code (codes.head?.getD Status.InternalServerError)).bytes (text e)

/-- http/response.go:126-148 `TryFile`, and 152-159 `File`: what the file system answers. -/
inductive FileAnswer
  /-- `os.Open` fails -/
  | noFile
  /-- `fd.Stat` fails -/
  | noStat
  | directory
  /-- a file with this content (as the file descriptor returns it), size and MIME type by its extension (empty
  if there is none) -/
  | file (content : Reader) (size : Int) (mime : Bytes)

/-- http/response.go:126-148 `TryFile`. -/
def tryFile (f : Fields) : FileAnswer → Fields × Option GoErr
  | .noFile => (f, some (.http Status.ErrNotFound))
  | .noStat => (f, some (.http Status.ErrInternalServerError))
  | .directory => (f, some (.http Status.ErrNotFound))
  | .file content size mime =>
    (({ f with ContentType := if mime.length = 0 then b!"application/octet-stream" else mime }).attachment
      (some content) size, none)

/-- http/response.go:152-159 `File`. -/
def file (text : GoErr → Bytes) (f : Fields) (a : FileAnswer) : Fields :=
  match f.tryFile a with
  | (f, some e) => f.error text (some e) []
  | (f, none) => f

/-- http/response.go:176-195 `TryJSON`, `JSON`: `out` is what the external encoder writes, `err` its error. -/
def json (text : GoErr → Bytes) (f : Fields) (out : Bytes) (err : Option GoErr) : Fields :=
  let f := (({ f with Body := [] } : Fields).write out).contentType b!"application/json"
  match err with
  | some e => f.error text (some e) []
  | none => f

end Fields
end Indigo
