/-
Model of internal/protocol/http1/serializer.go.
-/
import Verif.Base.Num
import Verif.Model.Response

namespace Indigo

/-- internal/protocol/http1/serializer.go:396-400 `defaultHeader`. -/
structure DefaultHeader where
  Excluded : Bool := false
  Key : Bytes
  Full : Bytes
  deriving DecidableEq, Repr

/-- internal/protocol/http1/serializer.go:40-49 `Serializer` (without the request and the writer, which are
passed). `fileBuff` is the memory of the file buffer, empty until it is allocated. -/
structure Serializer where
  buff : Bytes := []
  fileBuff : Bytes := []
  fileBuffSize : Nat
  defaultHeaders : List DefaultHeader := []
  deriving DecidableEq, Repr

/-- CR LF. -/
abbrev crlf : Bytes := [13, 10]

/-- How a write ends: an error (or nil), or a panic. -/
inductive WOut
  | done (e : Option GoErr)
  | panic
  deriving DecidableEq, Repr

namespace Serializer

/-- internal/protocol/http1/serializer.go:391-394 `renderHeader` (the function). -/
def fullHeader (key value : Bytes) : Bytes := key ++ b!": " ++ value ++ crlf

/-- internal/protocol/http1/serializer.go:375-389 `processDefaultHeaders`; the map in the order of its
iteration. -/
def processDefaultHeaders (hdrs : List (Bytes × Bytes)) : List DefaultHeader :=
  hdrs.map (fun kv => { Key := (fullHeader kv.1 kv.2).take kv.1.length, Full := fullHeader kv.1 kv.2 })

/-- internal/protocol/http1/serializer.go:29, 51-74 `NewSerializer`. -/
def new (fileBuffSize : Int) (defHdrs : List (Bytes × Bytes)) : Serializer :=
  { fileBuffSize := if fileBuffSize < 16 then 16 else fileBuffSize.toNat,
    defaultHeaders := processDefaultHeaders defHdrs }

/-- internal/protocol/http1/serializer.go:404-412 `Exclude`. -/
def exclude (F : Fold) (key : Bytes) : List DefaultHeader → List DefaultHeader
  | [] => []
  | h :: hs => if F.eq h.Key key then { h with Excluded := true } :: hs else h :: exclude F key hs

/-- internal/protocol/http1/serializer.go:414-418 `Reset`. The loop assigns to a copy of every element, so that
nothing changes. -/
def reset (hs : List DefaultHeader) : List DefaultHeader := hs

/-- Appending to the buffer. -/
def put (d : Serializer) (b : Bytes) : Serializer := { d with buff := d.buff ++ b }

/-- internal/protocol/http1/serializer.go:340-342 `renderProtocol`. -/
def renderProtocol (d : Serializer) (p : Proto) : Serializer := d.put (Proto.toBytes p)

/-- internal/protocol/http1/serializer.go:124-137 `renderResponseLine`. -/
def renderResponseLine (d : Serializer) (f : Fields) : Serializer :=
  if f.Status = [] ∧ Status.Line f.Code ≠ [] then d.put (Status.Line f.Code)
  else (((d.put (decBytes f.Code)).put [32]).put (Status.Text f.Code)).put crlf

/-- internal/protocol/http1/serializer.go:265-270 `renderHeader` (the method). -/
def renderHeader (d : Serializer) (h : Pair) : Serializer :=
  (((d.put h.Key).put [58, 32]).put h.Value).put crlf

/-- internal/protocol/http1/serializer.go:142-145: the loop over the response's headers. -/
def renderOwn (F : Fold) : List Pair → Serializer → Serializer
  | [], d => d
  | h :: hs, d =>
    let d := d.renderHeader h
    renderOwn F hs { d with defaultHeaders := exclude F h.Key d.defaultHeaders }

/-- internal/protocol/http1/serializer.go:147-153: the loop over the default headers. -/
def renderDefaults : List DefaultHeader → Serializer → Serializer
  | [], d => d
  | h :: hs, d => renderDefaults hs (if h.Excluded then d else d.put h.Full)

/-- internal/protocol/http1/serializer.go:334-338 `renderKnownHeader`. -/
def renderKnownHeader (d : Serializer) (key value : Bytes) : Serializer :=
  ((d.put key).put value).put crlf

/-- internal/protocol/http1/serializer.go:139-160 `renderHeaders`. -/
def renderHeaders (F : Fold) (d : Serializer) (f : Fields) : Serializer :=
  let d := renderOwn F f.Headers d
  let d := renderDefaults d.defaultHeaders d
  let d := d.renderKnownHeader b!"Content-Type: " f.ContentType
  if f.TransferEncoding.length > 0 then d.renderKnownHeader b!"Transfer-Encoding: " f.TransferEncoding else d

/-- internal/protocol/http1/serializer.go:329-332 `renderContentLength`. -/
def renderContentLength (d : Serializer) (n : Int) : Serializer :=
  ((d.put b!"Content-Length: ").put (intBytes n)).put crlf

/-- internal/protocol/http1/serializer.go:272-327: what `renderCookie` appends before stripping. -/
def cookieText (c : Cookie) : Bytes :=
  b!"Set-Cookie: " ++ c.Name ++ b!"=" ++ c.Value ++ b!"; " ++
  (if c.Path.length > 0 then b!"Path=" ++ c.Path ++ b!"; " else []) ++
  (if c.Domain.length > 0 then b!"Domain=" ++ c.Domain ++ b!"; " else []) ++
  (match c.Expires with
    | some t => b!"Expires=" ++ t ++ b!"; "
    | none => []) ++
  (if c.MaxAge ≠ 0 then b!"MaxAge=" ++ (if c.MaxAge > 0 then intBytes c.MaxAge else b!"0") ++ b!"; " else []) ++
  (if c.SameSite.length > 0 then b!"SameSite=" ++ c.SameSite ++ b!"; " else []) ++
  (if c.Secure then b!"Secure; " else []) ++
  (if c.HttpOnly then b!"HttpOnly; " else [])

/-- internal/protocol/http1/serializer.go:272-327 `renderCookie`. -/
def renderCookie (d : Serializer) (c : Cookie) : Serializer :=
  let d := d.put (cookieText c)
  ({ d with buff := d.buff.take (d.buff.length - 2) }).put crlf

/-- internal/protocol/http1/serializer.go:356-359 `clear`. -/
def clear (d : Serializer) : Serializer := { d with buff := [], defaultHeaders := reset d.defaultHeaders }

/-- internal/protocol/http1/serializer.go:361-373 `isKeepAlive`. -/
def isKeepAlive (F : Fold) (p : Proto) (connection : Bytes) : Bool :=
  if p = Proto.HTTP10 then F.eq connection b!"keep-alive"
  else if p = Proto.HTTP11 then ! F.eq connection b!"close"
  else false

/-- internal/protocol/http1/serializer.go:78-84 `PreWrite`. -/
def preWrite (F : Fold) (d : Serializer) (p : Proto) (f : Fields) : Serializer :=
  (renderHeaders F ((d.renderProtocol p).renderResponseLine f) f).put crlf

/-- `copy(mem[off:], data)` within memory `mem`. -/
def copyAt (mem : Bytes) (off : Nat) (data : Bytes) : Bytes :=
  mem.take off ++ (data.take (mem.length - off) ++ mem.drop (off + data.length))

/-- The memory slice `mem[i:j]`. -/
def slice (mem : Bytes) (i j : Nat) : Bytes := (mem.drop i).take (j - i)

def errClose : WOut := .done (some (.http Status.ErrCloseConnection))

/-- Termination measure of a reader. -/
def readerSize (r : Reader) : Nat := (r.map (fun e => e.1.length + 1)).sum + 1

/-- internal/protocol/http1/serializer.go:208-227 `writePlainBody`, `mem` being the file buffer (16 bytes at
least). The fuel is `readerSize`. -/
def writePlainBody : Nat → Bytes → Reader → Client → WOut × Bytes × Client
  | 0, mem, _, c => (.done none, mem, c)
  | fuel + 1, mem, r, c =>
    match Reader.read mem.length r with
    | ((d, none), r) =>
      let mem := copyAt mem 0 d
      match c.write (slice mem 0 d.length) with
      | (none, c) => writePlainBody fuel mem r c
      | (some _, c) => (errClose, mem, c)
    | ((d, some .eof), _) => (.done none, copyAt mem 0 d, c)
    | ((d, some _), _) => (errClose, copyAt mem 0 d, c)

/-- internal/protocol/http1/serializer.go:240-253: one chunk is put together in the file buffer, in which the
data are already in place, from offset 10 on. `none` if the size does not fit (`d.fileBuff[blankSpace:]` panics
with a negative `blankSpace`). -/
def chunkFrame (mem : Bytes) (n : Nat) : Option (Bytes × Bytes) :=
  let hex := hexBytes n
  let mem := copyAt mem 0 hex
  if hex.length > 8 then none
  else
    let blank := 8 - hex.length
    let mem := copyAt mem blank (slice mem 0 hex.length)
    let mem := copyAt mem 8 crlf
    let mem := copyAt mem (10 + n) crlf
    some (mem, slice mem blank (10 + n + 2))

/-- internal/protocol/http1/serializer.go:255-261: what follows a read within `writeChunkedBody`, depending on
its error; `none` to go on. -/
def chunkEnd (c : Client) : Option GoErr → Option (WOut × Client)
  | none => none
  | some .eof => some (.done (c.write b!"0\r\n\r\n").1, (c.write b!"0\r\n\r\n").2)
  | some _ => some (errClose, c)

/-- internal/protocol/http1/serializer.go:229-262 `writeChunkedBody`. -/
def writeChunkedBody : Nat → Bytes → Reader → Client → WOut × Bytes × Client
  | 0, mem, _, c => (.done none, mem, c)
  | fuel + 1, mem, r, c =>
    match Reader.read (mem.length - 2 - 10) r with
    | ((d, err), r) =>
      let mem := copyAt mem 10 d
      if d.length > 0 then
        match chunkFrame mem d.length with
        | none => (.panic, mem, c)
        | some (mem, frame) =>
          match c.write frame with
          | (some _, c) => (errClose, mem, c)
          | (none, c) =>
            match chunkEnd c err with
            | some (o, c) => (o, mem, c)
            | none => writeChunkedBody fuel mem r c
      else
        match chunkEnd c err with
        | some (o, c) => (o, mem, c)
        | none => writeChunkedBody fuel mem r c

/-- The result of a write: how it ended, the serializer, the connection, and whether the attachment's reader has
been closed. -/
structure Written where
  out : WOut
  ser : Serializer
  client : Client
  closed : Bool := false

/-- internal/protocol/http1/serializer.go:170-184: the head of a response with an attachment. (The response
object itself, which keeps `TransferEncoding: chunked`, is not returned.) -/
def attachmentHead (F : Fold) (d : Serializer) (f : Fields) : Serializer :=
  (if f.Attachment.size > 0 then (renderHeaders F d f).renderContentLength f.Attachment.size
   else renderHeaders F d (f.transferEncoding b!"chunked")).put crlf

/-- internal/protocol/http1/serializer.go:194-206: streaming the attachment. -/
def stream (size : Int) (r : Reader) (d : Serializer) (c : Client) : Written :=
  let mem := if d.fileBuff.length = 0 then List.replicate d.fileBuffSize 0 else d.fileBuff
  let res := if size > 0 then writePlainBody (readerSize r) mem r c else writeChunkedBody (readerSize r) mem r c
  { out := res.1, ser := { d with fileBuff := res.2.1 }, client := res.2.2, closed := res.1 ≠ .panic }

/-- internal/protocol/http1/serializer.go:164-206 `sendAttachment`. -/
def sendAttachment (F : Fold) (d : Serializer) (req : Request) (f : Fields) (r : Reader) (c : Client) : Written :=
  let d := attachmentHead F d f
  match c.write d.buff with
  | (some _, c) => { out := errClose, ser := d, client := c }
  | (none, c) =>
    if req.Method = .HEAD then { out := .done none, ser := d, client := c }
    else stream f.Attachment.size r d c

/-- internal/protocol/http1/serializer.go:97-113: the whole text of a response without an attachment. -/
def renderPlain (F : Fold) (d : Serializer) (req : Request) (f : Fields) : Serializer :=
  let d := renderHeaders F d f
  let d := f.Cookies.foldl renderCookie d
  let d := (d.renderContentLength f.Body.length).put crlf
  if req.Method ≠ .HEAD then d.put f.Body else d

/-- internal/protocol/http1/serializer.go:87-122 `Write`, with the deferred `clear`. -/
def write (F : Fold) (d : Serializer) (p : Proto) (req : Request) (f : Fields) (c : Client) : Written :=
  let d := (d.renderProtocol p).renderResponseLine f
  match f.Attachment.content with
  | some r =>
    let w := sendAttachment F d req f r c
    { w with ser := w.ser.clear }
  | none =>
    let d := renderPlain F d req f
    let (err, c) := c.write d.buff
    let err := if ¬ isKeepAlive F p req.Connection ∧ req.Upgrade = Proto.Unknown then
      some (.http Status.ErrCloseConnection) else err
    { out := .done err, ser := d.clear, client := c }

end Serializer
end Indigo
