/-
Model of internal/protocol/http1/body.go and internal/stash/reader.go.
-/
import Verif.Model.Client

namespace Indigo

/-- External `chunkedbody.Parser`: an arbitrary state machine `Parse(data, trailer) (chunk, extra, err)`.
Contract: the extra bytes are a proper suffix of the data, unless there are no data. -/
structure ChunkedParser (σ : Type) where
  init : σ
  parse : σ → Bytes → Bool → σ × Bytes × Bytes × Option GoErr
  suffix : ∀ s d t, ∃ used, d = used ++ (parse s d t).2.2.1 ∧ (d ≠ [] → used ≠ [])

/-- Largest `uint`. -/
def maxUint : Nat := 2 ^ 64 - 1

/-- internal/protocol/http1/body.go:17-25 `Body`, with its two readers (142-145 and 185-190, without the
client, which is threaded through) and internal/stash/reader.go:6-10. `maxBodyLen` is `Body.MaxSize`.
`fullCap` is the capacity of `fullBodyBuff`; growing by `append` is not tracked (it only makes the capacity
larger, and the capacity matters only for the size of the next allocation). -/
structure Body (σ : Type) where
  maxBodyLen : Nat
  bytesLeft : Nat := 0
  received : Nat := 0
  hasTrailer : Bool := false
  parser : σ
  isChunked : Bool := false
  contentLength : Int := 0
  fullBodyBuff : Bytes := []
  fullCap : Nat := 0
  eof : Bool := false
  stashPending : Bytes := []
  stashError : Option GoErr := none
  deriving DecidableEq, Repr

/-- Body and client: what the accessors of a body work on. -/
abbrev BC (σ : Type) := Body σ × Client

namespace Body
variable {σ : Type}

/-- internal/protocol/http1/body.go:27-37 `NewBody`. -/
def new (P : ChunkedParser σ) (maxSize : Nat) : Body σ := { maxBodyLen := maxSize, parser := P.init }

/-- internal/protocol/http1/body.go:39-50 `Init` with 154-156 `plainBodyReader.init`, 200-203
`chunkedBodyReader.init` and internal/stash/reader.go:37-40 `Reset`. -/
def initFor (b : Body σ) (r : Request) : Body σ :=
  let b := { b with isChunked := r.Encoding.Chunked, contentLength := r.ContentLength }
  let b :=
    if b.isChunked then { b with hasTrailer := r.Encoding.HasTrailer, received := 0 }
    else { b with bytesLeft := toUint r.ContentLength }
  { b with eof := false, stashPending := [], stashError := none }

/-- internal/protocol/http1/body.go:158-183 `plainBodyReader.read`. -/
def plainRead (s : BC σ) : (Bytes × Option GoErr) × BC σ :=
  let (b, c) := s
  if b.bytesLeft = 0 then (([], some .eof), (b, c))
  else match c.read with
    | ((_, some e), c) => (([], some e), (b, c))
    | ((data, none), c) =>
      if b.bytesLeft > b.maxBodyLen then (([], some (.http Status.ErrBodyTooLarge)), (b, c))
      else if data.length ≥ b.bytesLeft then
        ((data.take b.bytesLeft, some .eof), ({ b with bytesLeft := 0 }, c.unread (data.drop b.bytesLeft)))
      else ((data, none), ({ b with bytesLeft := b.bytesLeft - data.length }, c))

/-- internal/protocol/http1/body.go:230-232 `adduint`. -/
def adduint (x y : Nat) : Nat × Bool := ((x + y) % (maxUint + 1), maxUint - x < y)

/-- internal/protocol/http1/body.go:213-217: errors of the chunked parser other than `io.EOF`. -/
def isFatal : Option GoErr → Bool
  | none => false
  | some .eof => false
  | some _ => true

/-- internal/protocol/http1/body.go:211-227: the second half of `chunkedBodyReader.read`, after parsing. -/
def chunkedDone (b : Body σ) (c : Client) (chunk extra : Bytes) (err : Option GoErr) :
    (Bytes × Option GoErr) × BC σ :=
  if isFatal err then (([], err), (b, c))
  else if (adduint b.received chunk.length).2 = true ∨ (adduint b.received chunk.length).1 > b.maxBodyLen then
    (([], some (.http Status.ErrBodyTooLarge)), (b, c))
  else ((chunk, err), ({ b with received := (adduint b.received chunk.length).1 }, c.unread extra))

/-- internal/protocol/http1/body.go:205-228 `chunkedBodyReader.read`. -/
def chunkedRead (P : ChunkedParser σ) (s : BC σ) : (Bytes × Option GoErr) × BC σ :=
  let (b, c) := s
  match c.read with
  | ((_, some e), c) => (([], some e), (b, c))
  | ((data, none), c) =>
    match P.parse b.parser data b.hasTrailer with
    | (st, chunk, extra, err) => chunkedDone { b with parser := st } c chunk extra err

/-- internal/protocol/http1/body.go:136-140 `checkEOF`. -/
def checkEOF (b : Body σ) (e : Option GoErr) : Body σ := if e = some .eof then { b with eof := true } else b

/-- internal/protocol/http1/body.go:100-119 `Retrieve`. -/
def retrieve (P : ChunkedParser σ) (s : BC σ) : (Bytes × Option GoErr) × BC σ :=
  if s.1.eof then (([], some .eof), s)
  else
    let (r, s) := if s.1.isChunked then chunkedRead P s else plainRead s
    (r, (s.1.checkEOF r.2, s.2))

/-- Result of an accessor which may panic or run out of memory. -/
inductive Res (α : Type)
  | ok (a : α)
  | panic
  deriving DecidableEq, Repr

/-- internal/protocol/http1/body.go:70-80: the loop of `Bytes`. The fuel is `Client.size + 2`, which is
enough (`retrieve_size`). -/
def bytesLoop (P : ChunkedParser σ) : Nat → BC σ → (Option Bytes × Option GoErr) × BC σ
  | 0, s => ((none, none), s)
  | fuel + 1, s =>
    let ((data, err), s) := retrieve P s
    let s := ({ s.1 with fullBodyBuff := s.1.fullBodyBuff ++ data }, s.2)
    match err with
    | none => bytesLoop P fuel s
    | some .eof => ((some s.1.fullBodyBuff, none), s)
    | some e => ((none, some e), s)

/-- internal/protocol/http1/body.go:63-68: `Bytes` makes room for the body and empties the buffer. -/
def prepared (b : Body σ) : Body σ :=
  if ¬ b.isChunked ∧ (b.fullCap : Int) < b.contentLength then
    { b with fullCap := b.contentLength.toNat, fullBodyBuff := [] }
  else { b with fullBodyBuff := [] }

/-- internal/protocol/http1/body.go:58-81 `Bytes`. `none` is the nil slice. `maxAlloc` is the largest
capacity for which `make` does not panic. -/
def bytes (P : ChunkedParser σ) (maxAlloc : Nat) (s : BC σ) : Res (Option Bytes × Option GoErr) × BC σ :=
  let (b, c) := s
  if b.eof then (.ok (some b.fullBodyBuff, none), (b, c))
  else if ¬ b.isChunked ∧ (b.fullCap : Int) < b.contentLength ∧ b.contentLength > maxAlloc then (.panic, (b, c))
  else
    (.ok (bytesLoop P (c.size + 2) (b.prepared, c)).1, (bytesLoop P (c.size + 2) (b.prepared, c)).2)

/-- internal/protocol/http1/body.go:52-56 `String`. -/
def string (P : ChunkedParser σ) (maxAlloc : Nat) (s : BC σ) : Res (Bytes × Option GoErr) × BC σ :=
  match bytes P maxAlloc s with
  | (.ok (d, e), s) => (.ok (d.getD [], e), s)
  | (.panic, s) => (.panic, s)

/-- internal/protocol/http1/body.go:83-98 `Callback`. The callback's answer may depend on all data passed to
it before. Returned are also the data passed to the callback. -/
def callback (P : ChunkedParser σ) (cb : List Bytes → Bytes → Option GoErr) : Nat → List Bytes → BC σ →
    (List Bytes × Option GoErr) × BC σ
  | 0, seen, s => ((seen, none), s)
  | fuel + 1, seen, s =>
    let ((data, err), s) := retrieve P s
    match err with
    | none =>
      match cb seen data with
      | none => callback P cb fuel (seen ++ [data]) s
      | some e => ((seen ++ [data], some e), s)
    | some .eof => ((seen ++ [data], cb seen data), s)
    | some e => ((seen, some e), s)

/-- internal/protocol/http1/body.go:121-134 `Discard`. -/
def discard (P : ChunkedParser σ) : Nat → BC σ → Option GoErr × BC σ
  | 0, s => (none, s)
  | fuel + 1, s =>
    if s.1.eof then (none, s)
    else
      let ((_, err), s) := retrieve P s
      match err with
      | none => discard P fuel s
      | some .eof => (none, s)
      | some e => (some e, s)

/-- internal/stash/reader.go:18-31 `Read` into a slice of length `n`, with 33-35 `refill`. -/
def read (P : ChunkedParser σ) (n : Nat) (s : BC σ) : (Bytes × Option GoErr) × BC σ :=
  let s : BC σ :=
    if s.1.stashPending.length = 0 ∧ s.1.stashError = none then
      let ((d, e), s) := retrieve P s
      ({ s.1 with stashPending := d, stashError := e }, s.2)
    else s
  let out := s.1.stashPending.take n
  let s : BC σ := ({ s.1 with stashPending := s.1.stashPending.drop n }, s.2)
  ((out, if s.1.stashPending.length = 0 then s.1.stashError else none), s)

/-- Fuel for the loops above. -/
def fuel (s : BC σ) : Nat := s.2.size + 2

/-- The calls an application can make on the body of a request. -/
inductive Call
  | retrieve
  | bytes
  | string
  | callback (cb : List Bytes → Bytes → Option GoErr)
  | read (n : Nat)
  | discard

/-- Their answers. -/
inductive Answer
  | piece (d : Bytes) (e : Option GoErr)
  | whole (d : Option Bytes) (e : Option GoErr)
  | seen (ds : List Bytes) (e : Option GoErr)
  | done (e : Option GoErr)
  | panic
  deriving DecidableEq, Repr

def call (P : ChunkedParser σ) (maxAlloc : Nat) (s : BC σ) : Call → Answer × BC σ
  | .retrieve => (.piece (retrieve P s).1.1 (retrieve P s).1.2, (retrieve P s).2)
  | .bytes =>
    (match (bytes P maxAlloc s).1 with
      | .ok (d, e) => .whole d e
      | .panic => .panic, (bytes P maxAlloc s).2)
  | .string =>
    (match (string P maxAlloc s).1 with
      | .ok (d, e) => .whole (some d) e
      | .panic => .panic, (string P maxAlloc s).2)
  | .callback cb =>
    (.seen (callback P cb (fuel s) [] s).1.1 (callback P cb (fuel s) [] s).1.2, (callback P cb (fuel s) [] s).2)
  | .read n => (.piece (read P n s).1.1 (read P n s).1.2, (read P n s).2)
  | .discard => (.done (discard P (fuel s) s).1, (discard P (fuel s) s).2)

/-- A sequence of calls. -/
def calls (P : ChunkedParser σ) (maxAlloc : Nat) : List Call → BC σ → List Answer × BC σ
  | [], s => ([], s)
  | k :: ks, s =>
    ((call P maxAlloc s k).1 :: (calls P maxAlloc ks (call P maxAlloc s k).2).1,
      (calls P maxAlloc ks (call P maxAlloc s k).2).2)

end Body
end Indigo
