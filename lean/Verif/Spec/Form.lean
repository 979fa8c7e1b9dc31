/-
Specification of URL queries (application/x-www-form-urlencoded): lists of `key=value` items and flags.
-/
import Verif.Spec.Uri

namespace Indigo.Spec

/-- One query item. -/
inductive QItem
  | flag (k : Bytes)
  | kv (k v : Bytes)

namespace QItem
def key : QItem → Bytes
  | flag k => k
  | kv k _ => k

/-- The parameter an item denotes; a flag has the value `1`. -/
def param : QItem → Bytes × Bytes
  | flag k => (k, b!"1")
  | kv k v => (k, v)

/-- Plain text of one item. -/
def text : QItem → Bytes
  | flag k => k
  | kv k v => k ++ 61 :: v
end QItem

/-- Plain text of a query: the items joined by `&`. -/
def formText : List QItem → Bytes
  | [] => []
  | [i] => i.text
  | i :: is => i.text ++ 38 :: formText is

/-- `SpacePlus t s`: `t` is `s` with some of its spaces written as `+`. -/
inductive SpacePlus : Bytes → Bytes → Prop
  | nil : SpacePlus [] []
  | same {c t s} : SpacePlus t s → SpacePlus (c :: t) (c :: s)
  | plus {t s} : SpacePlus t s → SpacePlus (43 :: t) (32 :: s)

/-- The encoding a browser uses for a key or value: everything but letters, digits and `-._~` is escaped, a
space is written as `+`. -/
def formEscape : Bytes → Bytes
  | [] => []
  | c :: cs =>
    if c = 32 then 43 :: formEscape cs
    else if (97 ≤ c ∧ c ≤ 122) ∨ (65 ≤ c ∧ c ≤ 90) ∨ (48 ≤ c ∧ c ≤ 57) ∨ c ∈ b!"-._~" then
      c :: formEscape cs
    else 37 :: hexDigit (c.toNat / 16) :: hexDigit (c.toNat % 16) :: formEscape cs

/-- Proper form encoding of a list of pairs. -/
def formEncode (ps : List (Bytes × Bytes)) : Bytes :=
  formText (ps.map fun p => .kv (formEscape p.1) (formEscape p.2))

/-- `+` stands for a space. -/
def unplus (s : Bytes) : Bytes := s.map (fun c => if c = 43 then 32 else c)

/-- The parameter denoted by a piece of a query: up to the first `=` it is the key, behind it the value; without
`=` it is a flag. -/
def pieceParam (p : Bytes) : Bytes × Bytes :=
  if 61 ∈ p then (unplus (p.takeWhile (· != 61)), unplus ((p.dropWhile (· != 61)).drop 1)) else (unplus p, b!"1")

/-- Pieces joined by `&`. -/
def joinAmp : List Bytes → Bytes
  | [] => []
  | [p] => p
  | p :: ps => p ++ 38 :: joinAmp ps

end Indigo.Spec
