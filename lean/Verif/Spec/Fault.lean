/-
Specification: which error belongs to which fault of a request head.
-/
import Verif.Spec.Reject
import Verif.Model.Status

namespace Indigo.Spec

/-- Faults of the request line, in the order in which they are looked for: `m` is what comes before the first blank,
`line` what comes behind it, up to LF. -/
inductive LineFault : Bytes → Bytes → Status.HTTPError → Prop
  | noMethod (line) : LineFault [] line Status.ErrBadRequest
  | unknownMethod (m line) : m ≠ [] → (∀ k : Method, m ≠ methodName k) → LineFault m line Status.ErrMethodNotImplemented
  | noVersion (k line) : k ≠ Method.Unknown → 32 ∉ line → LineFault (methodName k) line Status.ErrBadRequest
  | noTarget (k query version) : k ≠ Method.Unknown → 32 ∉ version → version ≠ [] →
      LineFault (methodName k) (queryPart query ++ 32 :: version) Status.ErrBadRequest
  | badEscape (k target query version) : k ≠ Method.Unknown → target ≠ [] → 63 ∉ target → ¬ Escapable target →
      32 ∉ version → version ≠ [] →
      LineFault (methodName k) (target ++ queryPart query ++ 32 :: version) Status.ErrURIDecoding
  | badVersion (k target query version crlf) : k ≠ Method.Unknown → target ≠ [] → 63 ∉ target → Escapable target →
      32 ∉ version → (crlf = false → version ≠ [] ∧ version.getLast? ≠ some 13) → (¬ ∃ p, IsVersion version p) →
      LineFault (methodName k) (target ++ queryPart query ++ 32 :: (version ++ if crlf then [13] else []))
        Status.ErrUnsupportedProtocol

/-- Faults of the header section, after header lines with `names` bytes of names and `values` bytes of values, `number` of
them. The names are free of CR and LF. -/
inductive SectionFault (L : Limits) : (names values number : Nat) → Bytes → Status.HTTPError → Prop
  /-- the last line is not empty -/
  | noEnd {a b n} (c rest) : c ≠ 10 → SectionFault L a b n (13 :: c :: rest) Status.ErrBadRequest
  /-- too many bytes of names -/
  | names {a b n} (name rest) : 13 ∉ name → 10 ∉ name → 58 ∉ name → L.names < a + name.length →
      SectionFault L a b n (name ++ 58 :: rest) Status.ErrHeaderFieldsTooLarge
  /-- too many bytes of names, the last of which has not ended yet -/
  | namesOpen {a b n} (name) : name ≠ [] → 13 ∉ name → 10 ∉ name → 58 ∉ name → L.names < a + name.length →
      SectionFault L a b n name Status.ErrHeaderFieldsTooLarge
  /-- too many header lines -/
  | number {a b n} (name rest) : 13 ∉ name → 10 ∉ name → 58 ∉ name → a + name.length ≤ L.names → L.number < n + 1 →
      SectionFault L a b n (name ++ 58 :: rest) Status.ErrTooManyHeaders
  /-- something else than digits and blanks in Content-Length -/
  | length {a b n} (name ds c rest) : 13 ∉ name → 10 ∉ name → 58 ∉ name → a + name.length ≤ L.names → n + 1 ≤ L.number →
      lower name = b!"content-length" → (∀ d ∈ ds, d = 32 ∨ isDigit d = true) →
      c ≠ 32 → isDigit c = false → c ≠ 13 → c ≠ 10 →
      SectionFault L a b n (name ++ 58 :: (ds ++ c :: rest)) Status.ErrBadRequest
  /-- something between CR and LF after Content-Length -/
  | lengthEnd {a b n} (name ds c rest) : 13 ∉ name → 10 ∉ name → 58 ∉ name → a + name.length ≤ L.names → n + 1 ≤ L.number →
      lower name = b!"content-length" → (∀ d ∈ ds, d = 32 ∨ isDigit d = true) → c ≠ 10 →
      SectionFault L a b n (name ++ 58 :: (ds ++ 13 :: c :: rest)) Status.ErrBadRequest
  /-- a too long value, or too many bytes of values -/
  | value {a b n} (name v rest) : 13 ∉ name → 10 ∉ name → 58 ∉ name → a + name.length ≤ L.names → n + 1 ≤ L.number →
      lower name ≠ b!"content-length" → 10 ∉ v → L.value < v.length ∨ L.values < b + v.length →
      SectionFault L a b n (name ++ 58 :: (v ++ 10 :: rest)) Status.ErrHeaderFieldsTooLarge
  /-- the same, in a line which has not ended yet -/
  | valueOpen {a b n} (name v) : 13 ∉ name → 10 ∉ name → 58 ∉ name → a + name.length ≤ L.names → n + 1 ≤ L.number →
      lower name ≠ b!"content-length" → 10 ∉ v → L.value < v.length ∨ L.values < b + v.length →
      SectionFault L a b n (name ++ 58 :: v) Status.ErrHeaderFieldsTooLarge
  /-- a fault after a faultless line -/
  | next {a b n} (f : Field) (rest e) : f.OK → 13 ∉ f.name → 10 ∉ f.name → a + f.name.length ≤ L.names → n + 1 ≤ L.number →
      (f.isLength = false → f.rawLength ≤ L.value ∧ b + f.rawLength ≤ L.values ∧ (f.crlf = false → f.value ≠ [])) →
      SectionFault L (a + f.name.length) (b + if f.isLength then 0 else f.rawLength) (n + 1) rest e →
      SectionFault L a b n (f.render ++ rest) e

/-- Faults of a head. The request line is not too long. -/
inductive HeadFault (L : Limits) : Bytes → Status.HTTPError → Prop
  /-- faults of the method are found before the rest of the line is there -/
  | noMethod (rest) : HeadFault L (32 :: rest) Status.ErrBadRequest
  | unknownMethod (m rest) : 32 ∉ m → m ≠ [] → (∀ k : Method, m ≠ methodName k) →
      HeadFault L (m ++ 32 :: rest) Status.ErrMethodNotImplemented
  | line (m line rest e) : 32 ∉ m → 10 ∉ line → m.length + line.length ≤ L.line → LineFault m line e →
      HeadFault L (m ++ 32 :: (line ++ 10 :: rest)) e
  | fields (h : Head) (rest e) : h.OK → Escapable h.target → h.lineLength ≤ L.line → SectionFault L 0 0 0 rest e →
      HeadFault L (methodName h.method ++ 32 :: (h.line ++ eol h.crlf ++ rest)) e

/-! ### How far a head with a fault has been read -/

/-- A faultless header line, after lines with `names` bytes of names and `values` bytes of values, `number` of them. -/
structure Field.Faultless (L : Limits) (names values number : Nat) (f : Field) : Prop where
  ok : f.OK
  clean : 13 ∉ f.name ∧ 10 ∉ f.name
  names : names + f.name.length ≤ L.names
  number : number + 1 ≤ L.number
  value : f.isLength = false → f.rawLength ≤ L.value ∧ values + f.rawLength ≤ L.values ∧ (f.crlf = false → f.value ≠ [])

/-- The request line, up to its end. -/
def Head.firstLine (h : Head) : Bytes := methodName h.method ++ 32 :: (h.line ++ eol h.crlf)

/-- What comes after the request line and the header lines of `h`, which are faultless, is `bad`, and this begins with the first line with a fault, for which the error is `e`. -/
structure FaultAfter (L : Limits) (h : Head) (bad : Bytes) (e : Status.HTTPError) : Prop where
  ok : h.OK
  escapes : Escapable h.target
  clean : h.CleanNames
  noBareEmpty : h.NoBareEmpty
  fits : h.Fits L
  fault : SectionFault L (h.fields.map (fun f => f.name.length)).sum ((h.fields.filter (fun f => !f.isLength)).map Field.rawLength).sum h.fields.length bad e
  first : ∀ (f : Field) (rest : Bytes), bad = f.render ++ rest →
    ¬ f.Faultless L (h.fields.map (fun f => f.name.length)).sum ((h.fields.filter (fun f => !f.isLength)).map Field.rawLength).sum h.fields.length

/-- There is no request line at the beginning, or one which is faulty. -/
def NoFirstLine (L : Limits) (s : Bytes) : Prop :=
  ∀ (h : Head) (rest : Bytes), h.OK → Escapable h.target → h.lineLength ≤ L.line → s ≠ h.firstLine ++ rest

/-- No header has been read. -/
structure NoHeaders (r : Request) : Prop where
  headers : r.Headers.pairs = []
  contentLength : r.ContentLength = 0
  connection : r.Connection = []
  contentType : r.ContentType = []
  upgrade : r.Upgrade = Proto.Unknown
  encoding : r.Encoding = {}

/-- The line begins with the name Content-Length. -/
def LengthLine (bad : Bytes) : Prop := ∃ name rest, lower name = b!"content-length" ∧ bad = name ++ 58 :: rest

/-- What the request object says when the head at the beginning of `s` is refused because of its fault: all that comes before the line with the fault
(the digits of which, if it is a Content-Length line, may already have been added to the content length), and nothing else; without a faultless request line, no headers. -/
inductive ReadSoFar (F : Fold) (L : Limits) (maxTokens : Nat) (s : Bytes) (e : Status.HTTPError) (r : Request) : Prop
  | fields (h : Head) (bad : Bytes) (n : Int) : s = h.firstLine ++ h.fields.flatMap Field.render ++ bad → FaultAfter L h bad e →
      (¬ LengthLine bad → n = r.ContentLength) → Carries F maxTokens h { r with ContentLength := n } → ReadSoFar F L maxTokens s e r
  | line : NoFirstLine L s → NoHeaders r → ReadSoFar F L maxTokens s e r

end Indigo.Spec
