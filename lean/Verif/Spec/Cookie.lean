/-
Specification: the `Cookie` request header (RFC 6265, 4.2.1).
-/
import Verif.Base.Bytes

namespace Indigo.Spec.Cookie

/-- `name=value` -/
def pair (p : Bytes × Bytes) : Bytes := p.1 ++ b!"=" ++ p.2

/-- `cookie-string = cookie-pair *( ";" SP cookie-pair )` -/
def text : List (Bytes × Bytes) → Bytes
  | [] => []
  | [p] => pair p
  | p :: q :: ps => pair p ++ b!"; " ++ text (q :: ps)

/-- Characters of a cookie name: visible ASCII but separators (RFC 2616 `token`). -/
def nameChar (c : Byte) : Bool :=
  33 ≤ c && c ≤ 126 && !(b!"()<>@,;:\\\"/[]?={} ".contains c)

/-- `cookie-octet`: visible ASCII without double quote, comma, semicolon and backslash. -/
def valueChar (c : Byte) : Bool :=
  33 ≤ c && c ≤ 126 && !(b!"\",;\\".contains c)

/-- A cookie: the name is a token; the value consists of cookie octets. -/
def Valid (p : Bytes × Bytes) : Prop :=
  p.1 ≠ [] ∧ (∀ c ∈ p.1, nameChar c = true) ∧ ∀ c ∈ p.2, valueChar c = true

/-- What the header says, read liberally: non-empty names without `=`, values without `;`, the space after the
semicolon is optional, and so is a semicolon at the end. -/
inductive Says : Bytes → List (Bytes × Bytes) → Prop
  | none : Says [] []
  | last {k v : Bytes} : k ≠ [] → 61 ∉ k → 59 ∉ v → Says (k ++ 61 :: v) [(k, v)]
  | more {k v rest : Bytes} {ps : List (Bytes × Bytes)} : k ≠ [] → 61 ∉ k → 59 ∉ v → rest.head? ≠ some 32 →
      Says rest ps → Says (k ++ 61 :: (v ++ 59 :: rest)) ((k, v) :: ps)
  | moreSpace {k v rest : Bytes} {ps : List (Bytes × Bytes)} : k ≠ [] → 61 ∉ k → 59 ∉ v →
      Says rest ps → Says (k ++ 61 :: (v ++ 59 :: 32 :: rest)) ((k, v) :: ps)

end Indigo.Spec.Cookie
