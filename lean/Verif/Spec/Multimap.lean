/-
Specification of an ordered, case-insensitive multimap, as a list of key/value pairs.
-/
import Verif.Base.Bytes

namespace Indigo.Spec

/-- A key/value entry. -/
abbrev Entry := Bytes × Bytes

/-- Operations on a multimap; reads may be interleaved and change nothing. -/
inductive MOp
  | add (k v : Bytes)
  | clear
  | readValues (k : Bytes)
  | readKeys

/-- The entries after a history of operations: everything added since the last `clear`, in order. -/
def entries : List MOp → List Entry
  | ops => ops.foldl (fun es op =>
      match op with
      | .add k v => es ++ [(k, v)]
      | .clear => []
      | .readValues _ => es
      | .readKeys => es) []

/-- First value whose key is related to `k`. -/
def firstValue (same : Bytes → Bytes → Bool) (k : Bytes) (es : List Entry) : Option Bytes :=
  (es.find? (fun e => same e.1 k)).map Prod.snd

/-- All values whose key is related to `k`, in insertion order. -/
def allValues (same : Bytes → Bytes → Bool) (k : Bytes) (es : List Entry) : List Bytes :=
  (es.filter (fun e => same e.1 k)).map Prod.snd

/-- The keys at those positions before which no related key occurs. -/
def firstKeys (same : Bytes → Bytes → Bool) (es : List Entry) : List Bytes :=
  (es.zipIdx.filter (fun ei => !((es.take ei.2).any (fun e => same e.1 ei.1.1)))).map (fun ei => ei.1.1)

/-- Equality up to ASCII letter case. -/
def sameName (a b : Bytes) : Bool := lower a == lower b

end Indigo.Spec
