/-
Specification of complete but unacceptable request heads.
-/
import Verif.Spec.Head

namespace Indigo.Spec

/-- Each percent sign, not counting those inside an escape, is followed by two bytes (which need not be hexadecimal
digits: see C10). -/
inductive Escapable : Bytes → Prop
  | nil : Escapable []
  | lit {c e} : c ≠ 37 → Escapable e → Escapable (c :: e)
  | esc {h l e} : Escapable e → Escapable (37 :: h :: l :: e)

/-- The stream begins with a well-formed head within the limits. -/
def Acceptable (L : Limits) (s : Bytes) : Prop :=
  ∃ (h : Head) (extra : Bytes), s = h.render ++ extra ∧ h.OK ∧ h.CleanNames ∧ h.NoBareEmpty ∧ h.Fits L ∧ Escapable h.target

/-- A complete header section, followed by anything: lines `name ":" value LF`, whatever the names and values are, except
that names contain neither CR nor LF and that a value does not end in a blank; and then a line starting with LF, or with
CR. -/
inductive Section : Bytes → Prop
  | lf (rest) : Section (10 :: rest)
  | cr (c rest) : Section (13 :: c :: rest)
  | field (n v last rest) : 13 ∉ n → 10 ∉ n → 58 ∉ n → 10 ∉ v → 10 ≠ last → 32 ≠ last → Section rest →
      Section (n ++ 58 :: (v ++ last :: 10 :: rest))

/-- A complete head, whatever the request line and the header lines are: some bytes up to a blank, a rest of the request
line (not ending in a blank), and a header section. The request line is not too long. -/
def CompleteHead (L : Limits) (s : Bytes) : Prop :=
  ∃ m line rest : Bytes, s = m ++ 32 :: (line ++ 10 :: rest) ∧ 32 ∉ m ∧ 10 ∉ line ∧ line.getLast? ≠ some 32 ∧
    m.length + line.length ≤ L.line ∧ Section rest

end Indigo.Spec
