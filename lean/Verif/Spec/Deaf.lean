/-
Specification: connections on which writing may fail.
-/
import Verif.Spec.Session

namespace Indigo.Spec
open Serve (Setup Visit Ended)
variable {σ ρ : Type}

/-- The requests the router was called with, and its answers (the response, and what the handler made of the request object). -/
def answersOf (vs : List (Visit σ)) : List (Request × Option (Fields × Request)) :=
  vs.filterMap (fun v => match v with
    | .request seen _ answer _ => some (seen, answer)
    | .error _ _ _ _ => none)

/-- In none of these calls the connection was hijacked. -/
def NotHijacked (vs : List (Visit σ)) : Prop :=
  ∀ v ∈ vs, match v with
    | .request _ _ _ left => left.hijacked = false
    | .error _ _ _ left => left.hijacked = false

end Indigo.Spec
