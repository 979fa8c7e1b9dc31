/-
Memory-level model of internal/tcp/client.go, internal/protocol/http1/body.go and internal/stash/reader.go.
`Model/Client.lean` and `Model/Body.lean` have slices as values; here they are what they are in Go: the client reads
into one buffer again and again, what `Retrieve` gives and what `Read` keeps for later are parts of this buffer, and `Bytes`
and `String` give the memory of `fullBodyBuff`, which is used for all requests of a connection.
-/
import Verif.Model.Body
import Verif.Model.ResponseMem

namespace Indigo.BodyMem
open ResponseMem (Mem Slice append)

/-- A slice of bytes as the readers pass it on: a part of the client's buffer, or memory which nobody else uses (only the
external chunked parser may give such). -/
inductive Piece
  | part (off len : Nat)
  | copy (b : Bytes)
  deriving DecidableEq, Repr

/-- The nil slice. -/
def Piece.nil : Piece := .part 0 0

/-- `len(p)`. -/
def Piece.len : Piece → Nat
  | .part _ len => len
  | .copy b => b.length

/-- The elements, `buff` being the client's buffer. -/
def Piece.get (buff : Bytes) : Piece → Bytes
  | .part off len => (buff.drop off).take len
  | .copy b => b

/-- `p[:n]`, if `n` is not larger than the length. -/
def Piece.take (n : Nat) : Piece → Piece
  | .part off len => .part off (min n len)
  | .copy b => .copy (b.take n)

/-- `p[n:]`, likewise. -/
def Piece.drop (n : Nat) : Piece → Piece
  | .part off len => .part (off + n) (len - n)
  | .copy b => .copy (b.drop n)

/-- internal/tcp/client.go:17-22 `client`, as far as reading is concerned. `buff` is the content of the read buffer. `conn` as in
`Model/Client.lean`. -/
structure Cl where
  buff : Bytes
  pending : Piece := .nil
  conn : List (Bytes × Option GoErr) := []
  deriving DecidableEq, Repr

/-- internal/tcp/client.go:35-50 `Read`: line 47 overwrites the beginning of the buffer. -/
def Cl.read (c : Cl) : (Piece × Option GoErr) × Cl :=
  if c.pending.len > 0 then ((c.pending, none), { c with pending := .nil })
  else match c.conn with
    | [] => ((.nil, some .timeout), c)
    | ev :: conn => ((.part 0 ev.1.length, ev.2), { c with buff := ev.1 ++ c.buff.drop ev.1.length, conn })

/-- internal/tcp/client.go:59-61 `Unread`. -/
def Cl.unread (c : Cl) (p : Piece) : Cl := { c with pending := p }

/-- Where the external chunked parser finds the chunk it returns: a part of the data it was given, at this position, or
(`none`) a copy. The extra bytes are the end of the data (`ChunkedParser.suffix`). It does not change the data. -/
structure Slicing {σ : Type} (P : ChunkedParser σ) where
  chunkAt : σ → Bytes → Bool → Option Nat
  inside : ∀ s d t off, chunkAt s d t = some off → off + (P.parse s d t).2.1.length ≤ d.length ∧
    (d.drop off).take (P.parse s d t).2.1.length = (P.parse s d t).2.1

/-- internal/protocol/http1/body.go:17-25 `Body`, its client, and all memory. The numbers and flags of the body are those of `body`;
its `stashPending`, `fullBodyBuff` and `fullCap` are not used. -/
structure St (σ : Type) where
  body : Body σ
  /-- internal/stash/reader.go:8 `pending` -/
  stash : Piece := .nil
  /-- body.go:23 `fullBodyBuff`; in the beginning nil -/
  full : Slice := ⟨.own 0, 0, 0, 0⟩
  mem : Mem := {}
  cl : Cl

variable {σ : Type}

/-- internal/protocol/http1/body.go:39-50 `Init`. -/
def St.initFor (st : St σ) (r : Request) : St σ := { st with body := st.body.initFor r, stash := .nil }

/-- internal/protocol/http1/body.go:158-183 `plainBodyReader.read`. -/
def plainRead (st : St σ) : (Piece × Option GoErr) × St σ :=
  if st.body.bytesLeft = 0 then ((.nil, some .eof), st)
  else match st.cl.read with
    | ((_, some e), c) => ((.nil, some e), { st with cl := c })
    | ((data, none), c) =>
      if st.body.bytesLeft > st.body.maxBodyLen then ((.nil, some (.http Status.ErrBodyTooLarge)), { st with cl := c })
      else if data.len ≥ st.body.bytesLeft then
        ((data.take st.body.bytesLeft, some .eof),
          { st with body := { st.body with bytesLeft := 0 }, cl := c.unread (data.drop st.body.bytesLeft) })
      else ((data, none), { st with body := { st.body with bytesLeft := st.body.bytesLeft - data.len }, cl := c })

/-- The chunk within the data, or a copy. -/
def chunkOf (data : Piece) (at? : Option Nat) (chunk : Bytes) : Piece :=
  match at? with
  | some off => (data.drop off).take chunk.length
  | none => .copy chunk

/-- internal/protocol/http1/body.go:205-228 `chunkedBodyReader.read`. -/
def chunkedRead (P : ChunkedParser σ) (S : Slicing P) (st : St σ) : (Piece × Option GoErr) × St σ :=
  match st.cl.read with
  | ((_, some e), c) => ((.nil, some e), { st with cl := c })
  | ((data, none), c) =>
    let d := data.get c.buff
    let p := P.parse st.body.parser d st.body.hasTrailer
    let b := { st.body with parser := p.1 }
    if Body.isFatal p.2.2.2 then ((.nil, p.2.2.2), { st with body := b, cl := c })
    else if (Body.adduint b.received p.2.1.length).2 = true ∨ (Body.adduint b.received p.2.1.length).1 > b.maxBodyLen then
      ((.nil, some (.http Status.ErrBodyTooLarge)), { st with body := b, cl := c })
    else
      ((chunkOf data (S.chunkAt st.body.parser d st.body.hasTrailer) p.2.1, p.2.2.2),
        { st with body := { b with received := (Body.adduint b.received p.2.1.length).1 },
                  cl := c.unread (data.drop (d.length - p.2.2.1.length)) })

/-- internal/protocol/http1/body.go:100-119 `Retrieve`. -/
def retrieve (P : ChunkedParser σ) (S : Slicing P) (st : St σ) : (Piece × Option GoErr) × St σ :=
  if st.body.eof then ((.nil, some .eof), st)
  else
    let (r, st) := if st.body.isChunked then chunkedRead P S st else plainRead st
    (r, { st with body := st.body.checkEOF r.2 })

/-- Number of steps in which reading must come to an end. -/
def St.size (st : St σ) : Nat := st.cl.pending.len + (st.cl.conn.map (fun e => e.1.length + 1)).sum

/-- internal/protocol/http1/body.go:70-80: the loop of `Bytes`; `grow` is Go's policy for growing slices (see `append`). -/
def bytesLoop (grow : Nat → Nat → Nat) (P : ChunkedParser σ) (S : Slicing P) : Nat → St σ → (Option Slice × Option GoErr) × St σ
  | 0, st => ((none, none), st)
  | fuel + 1, st =>
    let ((data, err), st) := retrieve P S st
    let a := append grow st.mem st.full (data.get st.cl.buff)
    let st := { st with mem := a.1, full := a.2 }
    match err with
    | none => bytesLoop grow P S fuel st
    | some .eof => ((some st.full, none), st)
    | some e => ((none, some e), st)

/-- internal/protocol/http1/body.go:58-81 `Bytes`; line 65 allocates (sizes which cannot be allocated: see `Body.bytes`). -/
def bytes (grow : Nat → Nat → Nat) (P : ChunkedParser σ) (S : Slicing P) (st : St σ) : (Option Slice × Option GoErr) × St σ :=
  if st.body.eof then ((some st.full, none), st)
  else
    let st := if ¬ st.body.isChunked ∧ (st.full.cap : Int) < st.body.contentLength then
        { st with
          mem := { st.mem with own := st.mem.own ++ [List.replicate st.body.contentLength.toNat 0] }
          full := ⟨.own st.mem.own.length, 0, 0, st.body.contentLength.toNat⟩ }
      else { st with full := { st.full with len := 0 } }
    bytesLoop grow P S (st.size + 2) st

/-- internal/protocol/http1/body.go:83-98 `Callback`; passed are the elements at the time of the call. -/
def callback (P : ChunkedParser σ) (S : Slicing P) (cb : List Bytes → Bytes → Option GoErr) : Nat → List Bytes → St σ →
    (List Bytes × Option GoErr) × St σ
  | 0, seen, st => ((seen, none), st)
  | fuel + 1, seen, st =>
    let ((p, err), st) := retrieve P S st
    let data := p.get st.cl.buff
    match err with
    | none =>
      match cb seen data with
      | none => callback P S cb fuel (seen ++ [data]) st
      | some e => ((seen ++ [data], some e), st)
    | some .eof => ((seen ++ [data], cb seen data), st)
    | some e => ((seen, some e), st)

/-- internal/protocol/http1/body.go:121-134 `Discard`. -/
def discard (P : ChunkedParser σ) (S : Slicing P) : Nat → St σ → Option GoErr × St σ
  | 0, st => (none, st)
  | fuel + 1, st =>
    if st.body.eof then (none, st)
    else
      let ((_, err), st) := retrieve P S st
      match err with
      | none => discard P S fuel st
      | some .eof => (none, st)
      | some e => (some e, st)

/-- internal/stash/reader.go:18-31 `Read` into a slice of length `n`, with 33-35 `refill`: the bytes copied. -/
def read (P : ChunkedParser σ) (S : Slicing P) (n : Nat) (st : St σ) : (Bytes × Option GoErr) × St σ :=
  let st : St σ :=
    if st.stash.len = 0 ∧ st.body.stashError = none then
      let ((d, e), st) := retrieve P S st
      { st with stash := d, body := { st.body with stashError := e } }
    else st
  let out := (st.stash.get st.cl.buff).take n
  let st := { st with stash := st.stash.drop (min n st.stash.len) }
  ((out, if st.stash.len = 0 then st.body.stashError else none), st)

/-- The calls an application can make, and what it gets: the elements of slices at the time of the return. -/
def call (grow : Nat → Nat → Nat) (P : ChunkedParser σ) (S : Slicing P) (st : St σ) : Body.Call → Body.Answer × St σ
  | .retrieve => let r := retrieve P S st; (.piece (r.1.1.get r.2.cl.buff) r.1.2, r.2)
  | .bytes => let r := bytes grow P S st; (.whole (r.1.1.map r.2.mem.read) r.1.2, r.2)
  | .string => let r := bytes grow P S st; (.whole (some ((r.1.1.map r.2.mem.read).getD [])) r.1.2, r.2)
  | .callback cb => let r := callback P S cb (st.size + 2) [] st; (.seen r.1.1 r.1.2, r.2)
  | .read n => let r := read P S n st; (.piece r.1.1 r.1.2, r.2)
  | .discard => let r := discard P S (st.size + 2) st; (.done r.1, r.2)

/-- A sequence of calls. -/
def calls (grow : Nat → Nat → Nat) (P : ChunkedParser σ) (S : Slicing P) : List Body.Call → St σ → List Body.Answer × St σ
  | [], st => ([], st)
  | k :: ks, st =>
    let r := call grow P S st k
    (r.1 :: (calls grow P S ks r.2).1, (calls grow P S ks r.2).2)

/-- What happens on a connection, as far as reading is concerned: the server reads for the request parser, which takes `used` of the bytes;
the head of a request is complete; the application calls a method of the body (or `req.Clear` calls `Discard`). -/
inductive Step
  | head (used : Nat)
  | request (r : Request)
  | call (k : Body.Call)

/-- internal/protocol/http1/suit.go:66, 75, 90 (the bytes which the parser does not take are given back; when it takes all, there is
nothing to give back), 91, and the calls. -/
def step (grow : Nat → Nat → Nat) (P : ChunkedParser σ) (S : Slicing P) (st : St σ) : Step → Body.Answer × St σ
  | .head used =>
    let ((p, e), c) := st.cl.read
    (.piece (p.get c.buff) e, { st with cl := if e = none then c.unread (p.drop (min used p.len)) else c })
  | .request r => (.done none, st.initFor r)
  | .call k => call grow P S st k

def run (grow : Nat → Nat → Nat) (P : ChunkedParser σ) (S : Slicing P) : List Step → St σ → List Body.Answer × St σ
  | [], st => ([], st)
  | k :: ks, st =>
    let r := step grow P S st k
    (r.1 :: (run grow P S ks r.2).1, (run grow P S ks r.2).2)

/-- A new connection: internal/tcp/client.go:24-30 `NewClient` with a buffer for `size` bytes, and body.go:27-37 `NewBody`. -/
def St.new (P : ChunkedParser σ) (maxBodyLen size : Nat) (conn : List (Bytes × Option GoErr)) : St σ :=
  { body := Body.new P maxBodyLen, cl := { buff := List.replicate size 0, conn } }

end Indigo.BodyMem
