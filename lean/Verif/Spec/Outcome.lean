/-
Specification: heads which crash the parser, and heads which have not been received completely.
-/
import Verif.Spec.Fault

namespace Indigo.Spec

/-- Header sections with a line which has nothing but blanks between the colon and a bare LF (and whose name is not
Content-Length), after faultless lines. The numbers are those of `SectionFault`. -/
inductive SectionCrash (L : Limits) : (names values number : Nat) → Bytes → Prop
  | blank {a b n} (name v rest) : 13 ∉ name → 10 ∉ name → 58 ∉ name → a + name.length ≤ L.names → n + 1 ≤ L.number →
      lower name ≠ b!"content-length" → (∀ c ∈ v, c = 32) → v.length ≤ L.value → b + v.length ≤ L.values →
      SectionCrash L a b n (name ++ 58 :: (v ++ 10 :: rest))
  | next {a b n} (f : Field) (rest) : f.OK → 13 ∉ f.name → 10 ∉ f.name → a + f.name.length ≤ L.names → n + 1 ≤ L.number →
      (f.isLength = false → f.rawLength ≤ L.value ∧ b + f.rawLength ≤ L.values ∧ (f.crlf = false → f.value ≠ [])) →
      SectionCrash L (a + f.name.length) (b + if f.isLength then 0 else f.rawLength) (n + 1) rest →
      SectionCrash L a b n (f.render ++ rest)

/-- Heads which crash the parser: there is nothing between the last blank of the request line and LF, or in the header
section between a colon and LF. -/
inductive HeadCrash (L : Limits) : Bytes → Prop
  | line (k : Method) (line rest) : k ≠ .Unknown → 10 ∉ line → (methodName k).length + line.length + 1 ≤ L.line →
      HeadCrash L (methodName k ++ 32 :: (line ++ 32 :: 10 :: rest))
  | fields (h : Head) (rest) : h.OK → Escapable h.target → h.lineLength ≤ L.line → SectionCrash L 0 0 0 rest →
      HeadCrash L (methodName h.method ++ 32 :: (h.line ++ eol h.crlf ++ rest))

/-- Header sections which are faultless as far as they have been received, and go on. -/
inductive SectionOpen (L : Limits) : (names values number : Nat) → Bytes → Prop
  | start {a b n} : SectionOpen L a b n []
  | cr {a b n} : SectionOpen L a b n [13]
  | name {a b n} (name) : 13 ∉ name → 10 ∉ name → 58 ∉ name → a + name.length ≤ L.names → SectionOpen L a b n name
  | length {a b n} (name ds) : 13 ∉ name → 10 ∉ name → 58 ∉ name → a + name.length ≤ L.names → n + 1 ≤ L.number →
      lower name = b!"content-length" → (∀ d ∈ ds, d = 32 ∨ isDigit d = true) → SectionOpen L a b n (name ++ 58 :: ds)
  | lengthCR {a b n} (name ds) : 13 ∉ name → 10 ∉ name → 58 ∉ name → a + name.length ≤ L.names → n + 1 ≤ L.number →
      lower name = b!"content-length" → (∀ d ∈ ds, d = 32 ∨ isDigit d = true) → SectionOpen L a b n (name ++ 58 :: (ds ++ [13]))
  | value {a b n} (name v) : 13 ∉ name → 10 ∉ name → 58 ∉ name → a + name.length ≤ L.names → n + 1 ≤ L.number →
      lower name ≠ b!"content-length" → 10 ∉ v → v.length ≤ L.value → b + v.length ≤ L.values →
      SectionOpen L a b n (name ++ 58 :: v)
  | next {a b n} (f : Field) (rest) : f.OK → 13 ∉ f.name → 10 ∉ f.name → a + f.name.length ≤ L.names → n + 1 ≤ L.number →
      (f.isLength = false → f.rawLength ≤ L.value ∧ b + f.rawLength ≤ L.values ∧ (f.crlf = false → f.value ≠ [])) →
      SectionOpen L (a + f.name.length) (b + if f.isLength then 0 else f.rawLength) (n + 1) rest →
      SectionOpen L a b n (f.render ++ rest)

/-- Heads which are faultless as far as they have been received, and go on. -/
inductive HeadOpen (L : Limits) : Bytes → Prop
  | method (m) : 32 ∉ m → m.length ≤ L.line → HeadOpen L m
  | line (k : Method) (line) : k ≠ .Unknown → 10 ∉ line → (methodName k).length + line.length ≤ L.line →
      HeadOpen L (methodName k ++ 32 :: line)
  | fields (h : Head) (rest) : h.OK → Escapable h.target → h.lineLength ≤ L.line → SectionOpen L 0 0 0 rest →
      HeadOpen L (methodName h.method ++ 32 :: (h.line ++ eol h.crlf ++ rest))

/-- The request line is longer than `n` bytes: already its method, or what comes behind the method and the blank. -/
def LongLine (n : Nat) (s : Bytes) : Prop :=
  (n < s.length ∧ 32 ∉ s.take (n + 1)) ∨
  ∃ m line : Bytes, s = m ++ 32 :: line ∧ 32 ∉ m ∧ n < line.length ∧ 10 ∉ line.take (n + 1)

/-- The errors with which such a head may be refused (which of them may depend on the segmentation). -/
def longErrors : List Status.HTTPError :=
  [Status.ErrTooLongRequestLine, Status.ErrURITooLong, Status.ErrBadRequest, Status.ErrMethodNotImplemented]

end Indigo.Spec
