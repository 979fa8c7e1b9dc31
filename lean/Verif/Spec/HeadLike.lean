/-
Specification of requests with HEAD instead of GET.
-/
import Verif.Spec.Same

namespace Indigo.Spec
open Serve (Setup)
variable {σ ρ : Type}

/-- The same request, with HEAD. -/
def asHead (s : Sending) : Sending := { s with head := { s.head with method := .HEAD } }

/-- A handler which answers a request with HEAD as it answers the same one with GET. -/
def HeadBlind (E : Setup σ ρ) (h : Router.Handler Act) : Prop :=
  ∀ (r : Request) w body, r.Method = .GET → Holds E w body →
    ∃ f q q' left left', (h r).run E.P E.maxAlloc w = (some (f, q), left) ∧ (h { r with Method := .HEAD }).run E.P E.maxAlloc w = (some (f, q'), left')

end Indigo.Spec
