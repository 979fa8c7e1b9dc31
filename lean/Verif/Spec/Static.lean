/-
Specification of serving static files: which paths lie inside of a directory.
-/
import Verif.Base.Bytes

namespace Indigo.Spec.Static

/-- The separator a path uses: the first `/` or `\` in it, `/` if there is none. -/
def separator (root : Bytes) : Byte := (root.find? (fun c => c == 47 || c == 92)).getD 47

/-- The directory without the separator at its end. -/
def dir (root : Bytes) : Bytes := if root.getLast? = some (separator root) then root.dropLast else root

/-- Two dots in a row. -/
def HasDots (p : Bytes) : Prop := ∃ x y, p = x ++ 46 :: 46 :: y

/-- The path is the directory itself or the directory, a separator, and a rest in which there is nothing like `..`
(so that no element of it can lead upwards). -/
def Inside (root p : Bytes) : Prop :=
  p = dir root ∨ ∃ rest, p = dir root ++ separator root :: rest ∧ ¬ HasDots rest

end Indigo.Spec.Static
