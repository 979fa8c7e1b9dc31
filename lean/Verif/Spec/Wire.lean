/-
Specification: how a strict reader of HTTP/1.x (RFC 9112), a proxy in front of the server for instance, splits a stream of bytes into requests.
It is independent of the server and of the heads of Spec/Head.lean.
-/
import Verif.Spec.Serve
import Verif.Spec.Response
import Verif.Spec.Chunked

namespace Indigo.Spec
open Serve (Setup Visit)

/-- Characters of tokens (RFC 9110, 5.6.2). -/
def isTchar (c : Byte) : Bool :=
  (48 ≤ c && c ≤ 57) || (65 ≤ c && c ≤ 90) || (97 ≤ c && c ≤ 122) || (b!"!#$%&'*+-.^_`|~").contains c

/-- Characters of field values (RFC 9110, 5.5): no control characters except for tabs. -/
def isFieldChar (c : Byte) : Bool := c == 9 || (32 ≤ c && c != 127)

/-- Characters of request targets: visible ones. -/
def isTargetChar (c : Byte) : Bool := 33 ≤ c && c ≤ 126

/-- A request on the wire: its method, target and version, the fields (with all of what is between the colon and the end of the line), and the body. -/
structure WireRequest where
  method : Bytes
  target : Bytes
  version : Bytes
  fields : List (Bytes × Bytes)
  body : Bytes
  deriving DecidableEq, Repr

/-- Header lines up to the empty line, and what follows it: `token ":" field-value CRLF`. There is nothing between the name and the colon, and lines are not
folded. -/
def readWireFields : Nat → Bytes → Option (List (Bytes × Bytes) × Bytes)
  | 0, _ => none
  | n + 1, s =>
    match cutCRLF s with
    | none => none
    | some (line, rest) =>
      if line = [] then some ([], rest)
      else match cut 58 line with
        | none => none
        | some (k, v) =>
          if k ≠ [] ∧ k.all isTchar ∧ v.all isFieldChar then (readWireFields n rest).map (fun r => ((k, v) :: r.1, r.2))
          else none

/-- A body in the chunked coding, without extensions and trailers, and what follows it. -/
def readChunks : Nat → Bytes → Option (Bytes × Bytes)
  | 0, _ => none
  | n + 1, s =>
    match cutCRLF s with
    | none => none
    | some (digits, rest) =>
      match chunkSize digits with
      | none => none
      | some 0 => match cutCRLF rest with
        | some ([], rest) => some ([], rest)
        | _ => none
      | some (k + 1) =>
        if (rest.drop (k + 1)).take 2 = [13, 10] then
          (readChunks n (rest.drop (k + 3))).map (fun r => (rest.take (k + 1) ++ r.1, r.2))
        else none

/-- The values of fields with a name, whatever the case of its letters. -/
def valuesOf (name : Bytes) (fields : List (Bytes × Bytes)) : List Bytes :=
  (fields.filter (fun f => lower f.1 == name)).map (fun f => stripOWS f.2)

/-- The body and what follows it (RFC 9112, 6.3), if the fields say without doubt where it ends: by one Content-Length, or by one Transfer-Encoding, which is
`chunked`, or by neither of them. -/
def readBody (fields : List (Bytes × Bytes)) (s : Bytes) : Option (Bytes × Bytes) :=
  match valuesOf b!"transfer-encoding" fields, valuesOf b!"content-length" fields with
  | [], [] => some ([], s)
  | [], [v] => match readDecimal v with
    | some n => if n ≤ s.length then some (s.take n, s.drop n) else none
    | none => none
  | [v], [] => if lower v = b!"chunked" then readChunks (s.length + 1) s else none
  | _, _ => none

/-- A request, and what follows it: `method SP target SP version CRLF fields CRLF body`. -/
def readWire (s : Bytes) : Option (WireRequest × Bytes) :=
  match cutCRLF s with
  | none => none
  | some (line, rest) =>
    match cut 32 line with
    | none => none
    | some (method, line) =>
      match cut 32 line with
      | none => none
      | some (target, version) =>
        if method ≠ [] ∧ method.all isTchar ∧ target ≠ [] ∧ target.all isTargetChar ∧ (version = b!"HTTP/1.0" ∨ version = b!"HTTP/1.1") then
          match readWireFields (s.length + 1) rest with
          | none => none
          | some (fields, rest) => (readBody fields rest).map (fun r => ({ method, target, version, fields, body := r.1 }, r.2))
        else none

/-- All requests of a stream, with nothing left over. -/
def readWires : Nat → Bytes → Option (List WireRequest)
  | _, [] => some []
  | 0, _ :: _ => none
  | n + 1, s@(_ :: _) => match readWire s with
    | none => none
    | some (w, rest) => (readWires n rest).map (w :: ·)

/-- The path of the target, without the query. -/
def WireRequest.path (w : WireRequest) : Bytes := w.target.takeWhile (· ≠ 63)

/-- The query of the target, if there is one. -/
def WireRequest.query (w : WireRequest) : Option Bytes := (w.target.dropWhile (· ≠ 63)).head?.map (fun _ => (w.target.dropWhile (· ≠ 63)).tail)

/-- The fields other than Content-Length. -/
def WireRequest.others (w : WireRequest) : List (Bytes × Bytes) := w.fields.filter (fun f => !(lower f.1 == b!"content-length"))

/-- The request is one the server is able to take: its method is a known one, its path can be decoded (to `path`), there are no tabs around the digits of Content-Length,
and it is within the limits. -/
structure WireRequest.Fits (L : Limits) (maxTokens maxBody : Nat) (w : WireRequest) (m : Method) (path : Bytes) : Prop where
  method : m ≠ .Unknown ∧ w.method = methodName m
  path : w.path ≠ [] ∧ PctEncodes w.path path
  tabs : ∀ f ∈ w.fields, lower f.1 = b!"content-length" → 9 ∉ f.2
  line : w.method.length + w.target.length + w.version.length + 2 ≤ L.line
  names : (w.fields.map (fun f => f.1.length)).sum ≤ L.names
  values : (w.others.map (fun f => f.2.length + 1)).sum ≤ L.values
  number : w.fields.length ≤ L.number
  value : ∀ f ∈ w.others, f.2.length + 1 ≤ L.value
  tokens : 0 < maxTokens
  body : w.body.length ≤ maxBody ∧ w.body.length < 2 ^ 64

/-- The request `seen`, with the connection `world`, is the request `w` of the wire: method, path, query, version, the fields other than Content-Length, in order, without the blanks in front of their values;
and the body, retrieved to its end. -/
structure Heard {σ ρ : Type} (E : Setup σ ρ) (w : WireRequest) (m : Method) (path : Bytes) (seen : Request) (world : BC σ) : Prop where
  method : seen.Method = m
  path : seen.Path = path
  query : seen.Query.raw = w.query.getD []
  version : IsVersion w.version seen.Proto
  fields : seen.Headers.pairs = w.others.map (fun f => ⟨f.1, f.2.dropWhile (· = 32)⟩)
  body : ∃ ds s', Pieces E.P world ds .eof s' ∧ ds.flatten = w.body

end Indigo.Spec
