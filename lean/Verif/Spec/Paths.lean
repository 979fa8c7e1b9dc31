/-
Specification: what paths with `.`, `..` and repeated slashes stand for.
-/
import Verif.Spec.Router

namespace Indigo.Spec.Router

/-- Sections of a path from the root, and what they stand for after some of these steps: nothing between two slashes, and `.`, mean nothing; `..` takes back the
section before it, and there is nothing above the root. -/
inductive Resolves : List Bytes → List Bytes → Prop
  | done (ss) : Resolves ss ss
  | empty (a) {b ss} : Resolves (a ++ b) ss → Resolves (a ++ [] :: b) ss
  | here (a) {b ss} : Resolves (a ++ b) ss → Resolves (a ++ b!"." :: b) ss
  | up (a) {x b ss} : CleanPart x → Resolves (a ++ b) ss → Resolves (a ++ x :: b!".." :: b) ss
  | top {b ss} : Resolves b ss → Resolves (b!".." :: b) ss

/-- The path with these sections; the root has none. -/
def fromRoot : List Bytes → Bytes
  | [] => [SLASH]
  | ss => pathOf ss

end Indigo.Spec.Router
