/-
Specification notions for request bodies.
-/
import Verif.Model.Body

namespace Indigo.Spec
variable {σ : Type}

/-- Calling `Retrieve` again and again from `s` until it reports an error (`io.EOF` included) yields the
pieces `ds`, then error `e` (together with the last piece), and ends in `s'`. -/
inductive Pieces (P : ChunkedParser σ) : BC σ → List Bytes → GoErr → BC σ → Prop
  | last {s d e s'} : Body.retrieve P s = ((d, some e), s') → Pieces P s [d] e s'
  | more {s d s1 ds e s'} : Body.retrieve P s = ((d, none), s1) → Pieces P s1 ds e s' →
      Pieces P s (d :: ds) e s'

/-- The connection delivers data and then nothing more within the deadline, but no errors before. -/
def Quiet (c : Client) : Prop := ∀ ev ∈ c.conn, ev.2 = none

/-- The same connection with further events after those in the script. -/
def followedBy (c : Client) (post : List (Bytes × Option GoErr)) : Client := { c with conn := c.conn ++ post }

/-- Histories of a client: `History c0 consumed last c` says that from `c0`, by reading and by pushing back a
suffix of the last read (at most once per read), `c` has been reached, `consumed` are all bytes read and not
pushed back, and `last` is the last read, unless it has been used for pushing back. -/
inductive History (c0 : Client) : Bytes → Option Bytes → Client → Prop
  | start : History c0 [] none c0
  | read {consumed last c d e c'} : History c0 consumed last c → c.read = ((d, e), c') →
      History c0 (consumed ++ d) (some d) c'
  | unread {y x z c} : History c0 (y ++ x) (some (z ++ x)) c → History c0 y none (c.unread x)

/-- A run of `Read` calls with buffers of the given lengths: the pieces and errors returned. -/
def reads (P : ChunkedParser σ) : List Nat → BC σ → List (Bytes × Option GoErr) × BC σ
  | [], s => ([], s)
  | n :: ns, s =>
    let (r, s) := Body.read P n s
    let (rs, s) := reads P ns s
    (r :: rs, s)

/-- Contract of a chunked transfer decoder in full: `Decoding st t input body after` means that in state `st`
(and with trailers if `t`), the stream `input` decodes to `body` and ends where `after` begins. -/
structure Decodes (P : ChunkedParser σ) (Decoding : σ → Bool → Bytes → Bytes → Bytes → Prop) : Prop where
  step : ∀ st t d d' body after, Decoding st t (d ++ d') body after → d ≠ [] →
    let r := P.parse st d t
    (r.2.2.2 = none ∧ ∃ body', body = r.2.1 ++ body' ∧ Decoding r.1 t (r.2.2.1 ++ d') body' after) ∨
    (r.2.2.2 = some .eof ∧ body = r.2.1 ∧ r.2.2.1 ++ d' = after ∧ r.1 = P.init)
  empty : ∀ st t input body after, Decoding st t input body after →
    let r := P.parse st [] t
    r.2.2.2 = none ∧ r.2.1 = [] ∧ Decoding r.1 t input body after
  nonempty : ∀ st t body after, ¬ Decoding st t [] body after

/-- `k` calls of `Retrieve`, whatever they answer. -/
def retrieves (P : ChunkedParser σ) : Nat → BC σ → List (Bytes × Option GoErr)
  | 0, _ => []
  | k + 1, s => (Body.retrieve P s).1 :: retrieves P k (Body.retrieve P s).2

/-- Calls of `Bytes` and `String`. -/
def wantsWhole : Body.Call → Bool
  | .bytes => true
  | .string => true
  | _ => false

/-- `Bytes`/`String` are called only while the body has not been read to its end yet, or when they have been
called before (`own`) for the same request. -/
def BytesInTime (P : ChunkedParser σ) (maxAlloc : Nat) : Bool → BC σ → List Body.Call → Prop
  | _, _, [] => True
  | own, s, k :: ks =>
    (wantsWhole k = true → s.1.eof = false ∨ own = true) ∧
      BytesInTime P maxAlloc (own || wantsWhole k) (Body.call P maxAlloc s k).2 ks

end Indigo.Spec
