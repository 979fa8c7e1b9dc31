/-
Specification of protocol tokens and comma separated lists.
-/
import Verif.Model.Method

namespace Indigo.Spec

/-- The request method names of RFC 9110 (and RFC 5789 for PATCH), as sent on the wire. -/
def methodName : Method → Bytes
  | .Unknown => []
  | .GET => b!"GET" | .HEAD => b!"HEAD" | .POST => b!"POST" | .PUT => b!"PUT"
  | .DELETE => b!"DELETE" | .CONNECT => b!"CONNECT" | .OPTIONS => b!"OPTIONS"
  | .TRACE => b!"TRACE" | .PATCH => b!"PATCH"

/-- Splitting at every comma. -/
def splitComma : Bytes → List Bytes
  | [] => [[]]
  | c :: cs =>
    if c = 44 then [] :: splitComma cs
    else match splitComma cs with
      | [] => [[c]]
      | t :: ts => (c :: t) :: ts

/-- Blank characters around list elements: space and horizontal tab (OWS of RFC 9110). -/
def isOWS (c : Byte) : Prop := c = 32 ∨ c = 9

/-- `Padded s t`: `s` is `t` with optional white space around it. -/
def Padded (s t : Bytes) : Prop :=
  ∃ a b : Bytes, (∀ c ∈ a, isOWS c) ∧ (∀ c ∈ b, isOWS c) ∧ s = a ++ t ++ b

/-- `ListText s ts`: `s` is a comma separated list with elements `ts`, each with optional white space
around it. -/
inductive ListText : Bytes → List Bytes → Prop
  | one {s t} : Padded s t → ListText s [t]
  | cons {s t r ts} : Padded s t → ListText r ts → ListText (s ++ 44 :: r) (t :: ts)

/-- A token consists of visible ASCII characters other than the comma. -/
def IsToken (t : Bytes) : Prop := ∀ c ∈ t, c ≠ 44 ∧ 32 < c.toNat ∧ c.toNat < 127

end Indigo.Spec
