/-
A reference decoder for the chunked transfer coding (RFC 9112 section 7.1), byte by byte. It is not a model of
code in the repository: the decoder used there is an external package. It serves to show that the contracts
assumed of that package can be met, and as the reader of chunked responses.
-/
import Verif.Spec.Body

namespace Indigo.Spec

/-- States of the decoder: within the size (value so far, any digit seen), within an extension, before the
line feed ending the size line, with `n + 1` bytes of data to come, before the CR and LF after the data, at the
start of a trailer line, within one, before the last line feed. -/
inductive CS
  | size (n : Nat) (any : Bool)
  | ext (n : Nat)
  | sizeLF (n : Nat)
  | data (n : Nat)
  | dataCR
  | dataLF
  | trailer
  | line
  | lastLF
  deriving DecidableEq, Repr

/-- What one byte does. -/
inductive CStep
  | next (s : CS) (out : Option UInt8)
  | done
  | bad
  deriving DecidableEq, Repr

/-- Value of a hexadecimal digit. -/
def chunkDigit? (b : UInt8) : Option Nat :=
  if 48 ≤ b ∧ b ≤ 57 then some (b.toNat - 48)
  else if 97 ≤ b ∧ b ≤ 102 then some (b.toNat - 87)
  else if 65 ≤ b ∧ b ≤ 70 then some (b.toNat - 55)
  else none

def cstep (t : Bool) : CS → UInt8 → CStep
  | .size n any, b =>
    match chunkDigit? b with
    | some v => .next (.size (16 * n + v) true) none
    | none => if any = false then .bad else if b = 13 then .next (.sizeLF n) none
      else if b = 59 then .next (.ext n) none else .bad
  | .ext n, b => if b = 13 then .next (.sizeLF n) none else if b = 10 then .bad else .next (.ext n) none
  | .sizeLF 0, b => if b = 10 then .next .trailer none else .bad
  | .sizeLF (n + 1), b => if b = 10 then .next (.data n) none else .bad
  | .data 0, b => .next .dataCR (some b)
  | .data (n + 1), b => .next (.data n) (some b)
  | .dataCR, b => if b = 13 then .next .dataLF none else .bad
  | .dataLF, b => if b = 10 then .next (.size 0 false) none else .bad
  | .trailer, b => if b = 13 then .next .lastLF none else if t then .next .line none else .bad
  | .line, b => if b = 10 then .next .trailer none else .next .line none
  | .lastLF, b => if b = 10 then .done else .bad

/-- Feeding data: the new state, the decoded bytes, the bytes left, whether the end has been reached
(`some .eof`) or the data are malformed. -/
def cfeed (t : Bool) : CS → Bytes → CS × Bytes × Bytes × Option GoErr
  | s, [] => (s, [], [], none)
  | s, b :: d =>
    match cstep t s b with
    | .bad => (s, [], [], some (.http Status.ErrBadRequest))
    | .done => (.size 0 false, [], d, some .eof)
    | .next s' out =>
      match cfeed t s' d with
      | (s'', body, extra, err) => (s'', out.toList ++ body, extra, err)

theorem cfeed_suffix (t : Bool) (d : Bytes) : ∀ s, ∃ used, d = used ++ (cfeed t s d).2.2.1 ∧ (d ≠ [] → used ≠ []) := by
  induction d with
  | nil => intro s; exact ⟨[], rfl, fun h => absurd rfl h⟩
  | cons b d ih =>
    intro s
    simp only [cfeed]
    cases h : cstep t s b with
    | bad => exact ⟨b :: d, by simp, by simp⟩
    | done => exact ⟨[b], by simp, by simp⟩
    | next s' out =>
      obtain ⟨used, h1, _⟩ := ih s'
      exact ⟨b :: used, by simpa using h1, by simp⟩

/-- The reference decoder. -/
def refParser : ChunkedParser CS where
  init := .size 0 false
  parse s d t := cfeed t s d
  suffix s d t := cfeed_suffix t d s

/-- What a whole stream decodes to, and what follows. -/
def crun (t : Bool) : CS → Bytes → Option (Bytes × Bytes)
  | _, [] => none
  | s, b :: d =>
    match cstep t s b with
    | .bad => none
    | .done => some ([], d)
    | .next s' out => (crun t s' d).map (fun r => (out.toList ++ r.1, r.2))

/-- `Decoding` for the reference decoder. -/
def refDecoding (s : CS) (t : Bool) (input body after : Bytes) : Prop := crun t s input = some (body, after)

/-- Value of a string of hexadecimal digits. -/
def chunkSize : Bytes → Option Nat
  | [] => none
  | ds => ds.foldl (fun acc b => acc.bind fun n => (chunkDigit? b).map fun v => 16 * n + v) (some 0)

/-- `ChunkedCoding chunks stream`: the stream is a chunked coding of these chunks, without extensions and
trailers. -/
inductive ChunkedCoding : List Bytes → Bytes → Prop
  | last {ds} : chunkSize ds = some 0 → ChunkedCoding [] (ds ++ [13, 10] ++ [13, 10])
  | chunk {ds c cs rest} : chunkSize ds = some c.length → c ≠ [] → ChunkedCoding cs rest →
      ChunkedCoding (c :: cs) (ds ++ [13, 10] ++ c ++ [13, 10] ++ rest)

end Indigo.Spec
