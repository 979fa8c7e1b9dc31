/-
Specification of what a response consists of when there may be several.
-/
import Verif.Model.OneResponse

namespace Indigo.Spec.OneResponse
open Indigo.OneResponse

/-- Where responses come from, in the order of their numbers: `true` for `Respond`, `false` for `NewResponse`. -/
def kinds (p : List Stmt) : List Bool := p.filterMap (fun | .respond => some true | .new => some false | .call _ _ => none)

/-- The methods called on the responses with certain numbers. -/
def callsOn (which : Nat → Bool) (p : List Stmt) : List (Fields → Option Fields) :=
  p.filterMap (fun | .call v f => if which v then some f else none | _ => none)

/-- A blank response with these methods called on it; `none` if one of them panics. -/
def built (fs : List (Fields → Option Fields)) : Option Fields :=
  fs.foldlM (fun r f => f r) { Code := 200, ContentType := b!"text/html" }

end Indigo.Spec.OneResponse
