/-
Specification of HTTP/1.x request heads (no reference to the parser model, except the plain data types).
-/
import Verif.Model.Request
import Verif.Spec.Tokens
import Verif.Spec.Uri

namespace Indigo.Spec

/-- The header section of a byte stream (as far as it has arrived) has no CR and no LF inside a field
name: it is a sequence of `name ":" anything-up-to-LF LF`, ended by a line starting with CR or LF, or cut
short anywhere. -/
inductive CleanFields : Bytes → Prop
  | none : CleanFields []
  | endLF (rest : Bytes) : CleanFields (10 :: rest)
  | endCR (rest : Bytes) : CleanFields (13 :: rest)
  | name (n : Bytes) : 13 ∉ n → 10 ∉ n → 58 ∉ n → CleanFields n
  | value (n v : Bytes) : 13 ∉ n → 10 ∉ n → 58 ∉ n → 10 ∉ v → CleanFields (n ++ 58 :: v)
  | field (n v rest : Bytes) : 13 ∉ n → 10 ∉ n → 58 ∉ n → 10 ∉ v → CleanFields rest →
      CleanFields (n ++ 58 :: (v ++ 10 :: rest))

/-- A request stream whose field names contain neither CR nor LF: method, space, rest of the request line,
LF, clean header section. -/
def CleanStream (s : Bytes) : Prop :=
  ∀ m line rest : Bytes, s = m ++ 32 :: (line ++ 10 :: rest) → 32 ∉ m → 10 ∉ line → CleanFields rest

/-- The request line (with method, without its LF) has at most `n` bytes, not counting the space after the
method. -/
def RequestLineFits (n : Nat) (s : Bytes) : Prop :=
  (32 ∉ s → s.length ≤ n) ∧
  (∀ m line : Bytes, s = m ++ 32 :: line → 32 ∉ m → 10 ∉ line → m.length + line.length ≤ n) ∧
  (∀ m line rest : Bytes, s = m ++ 32 :: (line ++ 10 :: rest) → 32 ∉ m → 10 ∉ line →
    m.length + line.length ≤ n)

/-- Every LF of the stream is preceded by a byte which is neither a blank nor a colon. -/
def LFGuarded (s : Bytes) : Prop :=
  ∀ a b : Bytes, s = a ++ 10 :: b → ∃ c, a.getLast? = some c ∧ c ≠ 32 ∧ c ≠ 58

/-! ### Request heads -/

/-- End of line: CR LF, or a bare LF. -/
def eol (crlf : Bool) : Bytes := if crlf then [13, 10] else [10]

/-- A header line `name: value`, with some blanks after the colon. -/
structure Field where
  name : Bytes
  pad : Nat
  value : Bytes
  crlf : Bool

def Field.render (f : Field) : Bytes :=
  f.name ++ 58 :: (List.replicate f.pad 32 ++ (f.value ++ eol f.crlf))

/-- The field's name is `n` (in lower case), up to letter case. -/
def Field.named (n : Bytes) (f : Field) : Bool := lower f.name == n

def Field.isLength (f : Field) : Bool := f.named b!"content-length"

def isDigit (c : Byte) : Bool := 48 ≤ c && c ≤ 57

/-- Number written by a string of decimal digits. -/
def decimal (ds : Bytes) : Nat := ds.foldl (fun n c => 10 * n + (c.toNat - 48)) 0

/-- A line of the header section: the name is free of colons and does not begin with an end of line, the
value does not begin with a blank, has no LF and, before a bare LF, no CR at its end. The value of
Content-Length has only digits and blanks. -/
structure Field.OK (f : Field) : Prop where
  name_colon : 58 ∉ f.name
  name_head : f.name.head? ≠ some 13 ∧ f.name.head? ≠ some 10
  value_lf : 10 ∉ f.value
  value_head : f.value.head? ≠ some 32
  value_last : f.crlf = false → f.value.getLast? ≠ some 13
  value_length : f.isLength = true → ∀ c ∈ f.value, c = 32 ∨ isDigit c = true

structure Head where
  method : Method
  target : Bytes
  query : Option Bytes
  version : Bytes
  crlf : Bool
  fields : List Field
  lastCrlf : Bool

/-- `?` and the query. -/
def queryPart : Option Bytes → Bytes
  | none => []
  | some q => 63 :: q

/-- The request line behind the method. -/
def Head.line (h : Head) : Bytes := h.target ++ queryPart h.query ++ 32 :: h.version

def Head.render (h : Head) : Bytes :=
  methodName h.method ++ 32 :: (h.line ++ eol h.crlf ++ h.fields.flatMap Field.render ++ eol h.lastCrlf)

/-- Version tokens; the byte between the digits is not looked at (see C16). -/
def IsVersion (v : Bytes) (p : Proto) : Prop :=
  ∃ sep, (v = b!"HTTP/1" ++ [sep] ++ b!"0" ∧ p = Proto.HTTP10) ∨
    (v = b!"HTTP/1" ++ [sep] ++ b!"1" ∧ p = Proto.HTTP11) ∨
    (v = b!"HTTP/2" ++ [sep] ++ b!"0" ∧ p = Proto.HTTP2)

structure Head.OK (h : Head) : Prop where
  method : h.method ≠ .Unknown
  target : h.target ≠ [] ∧ 10 ∉ h.target ∧ 63 ∉ h.target
  query : ∀ q, h.query = some q → 10 ∉ q
  version : (∃ p, IsVersion h.version p) ∧ 32 ∉ h.version ∧ 10 ∉ h.version
  fields : ∀ f ∈ h.fields, f.OK

/-- The last field with the given name. -/
def Head.last (h : Head) (n : Bytes) : Option Bytes :=
  ((h.fields.filter (Field.named n)).getLast?).map Field.value

/-- All decimal digits of all Content-Length lines. -/
def Head.lengthDigits (h : Head) : Bytes :=
  (h.fields.filter Field.isLength).flatMap (fun f => f.value.filter isDigit)

/-- Configured limits of the parser. -/
structure Limits where
  /-- bytes of the request line -/
  line : Nat
  /-- bytes of all field names together -/
  names : Nat
  /-- bytes of all field values together (not counting Content-Length) -/
  values : Nat
  /-- number of header lines -/
  number : Nat
  /-- bytes of one field value -/
  value : Nat

/-- Length of the text between the colon and LF. -/
def Field.rawLength (f : Field) : Nat := f.pad + f.value.length + (if f.crlf then 1 else 0)

/-- Length of the request line without the space after the method and without LF. -/
def Head.lineLength (h : Head) : Nat :=
  (methodName h.method).length + h.line.length + (if h.crlf then 1 else 0)

/-- The head is within the limits. -/
structure Head.Fits (h : Head) (L : Limits) : Prop where
  line : h.lineLength ≤ L.line
  names : (h.fields.map (fun f => f.name.length)).sum ≤ L.names
  values : ((h.fields.filter (fun f => !f.isLength)).map Field.rawLength).sum ≤ L.values
  number : h.fields.length ≤ L.number
  value : ∀ f ∈ h.fields, f.isLength = false → f.rawLength ≤ L.value

/-- Field names without CR and LF. -/
def Head.CleanNames (h : Head) : Prop := ∀ f ∈ h.fields, 13 ∉ f.name ∧ 10 ∉ f.name

/-- No empty value in front of a bare LF (such a line makes the parser panic, see C03). -/
def Head.NoBareEmpty (h : Head) : Prop :=
  ∀ f ∈ h.fields, f.isLength = false → f.crlf = false → f.value ≠ []

/-- The non-empty elements of a comma separated list, without surrounding white space. -/
def listElems (v : Bytes) : List Bytes :=
  ((splitComma v).map trimSpace).filter (fun t => t ≠ [])

/-- Encoding tokens of a list value; none if there are more than `max`. -/
def encTokens (max : Nat) (v : Bytes) : List Bytes :=
  if (listElems v).length ≤ max then listElems v else []

/-- What a handler finds in the request, for a head. -/
structure Carries (F : Fold) (maxTokens : Nat) (h : Head) (r : Request) : Prop where
  method : r.Method = h.method
  path : ∀ s, Unescapes h.target s → r.Path = s
  query : r.Query.raw = h.query.getD [] ∧ r.Query.parsed = false ∧ r.Query.params.pairs = []
  proto : IsVersion h.version r.Proto
  headers : r.Headers.pairs = (h.fields.filter (fun f => !f.isLength)).map (fun f => ⟨f.name, f.value⟩)
  /-- the digits of all Content-Length lines, as a 64 bit integer -/
  contentLength : r.ContentLength = Int.bmod (decimal h.lengthDigits) (2 ^ 64)
  connection : r.Connection = (h.last b!"connection").getD []
  contentType : r.ContentType = (h.last b!"content-type").getD []
  upgrade : r.Upgrade = ((h.last b!"upgrade").map Proto.chooseUpgrade).getD Proto.Unknown
  trailer : r.Encoding.HasTrailer = (h.last b!"trailer").isSome
  content : r.Encoding.Content = ((h.last b!"content-encoding").map (encTokens maxTokens)).getD []
  transfer : r.Encoding.Transfer = ((h.last b!"transfer-encoding").map (encTokens maxTokens)).getD []
  chunked : r.Encoding.Chunked = r.Encoding.Transfer.any (fun t => F.eq t b!"chunked")

/-- A request object in the state in which `Reset`/`Clear` leave it, as far as the head is concerned. -/
structure Cleared (r : Request) : Prop where
  query : r.Query.raw = [] ∧ r.Query.parsed = false ∧ r.Query.params.pairs = []
  headers : r.Headers.pairs = []
  contentLength : r.ContentLength = 0
  connection : r.Connection = []
  contentType : r.ContentType = []
  upgrade : r.Upgrade = Proto.Unknown
  encoding : r.Encoding = {}

end Indigo.Spec
