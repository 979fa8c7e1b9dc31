/-
Specification of requests which say the same but for the letter case of the names of headers.
-/
import Verif.Spec.Spelling

namespace Indigo.Spec
open Serve (Setup)
variable {σ ρ : Type}

/-- Two requests say the same, if the letter case of the names of headers does not count (see `SameSaid` for what may differ besides). -/
structure AlikeSaid (s s' : Sending) : Prop where
  method : s.head.method = s'.head.method
  path : s.path = s'.path
  query : s.head.query.getD [] = s'.head.query.getD []
  version : ∀ p, IsVersion s.head.version p ↔ IsVersion s'.head.version p
  fields : (s.head.fields.filter (fun f => !f.isLength)).map (fun f => (lower f.name, f.value)) = (s'.head.fields.filter (fun f => !f.isLength)).map (fun f => (lower f.name, f.value))
  length : decimal s.head.lengthDigits = decimal s'.head.lengthDigits
  body : s.body = s'.body

/-- What a request says, with the names of headers in lower case. -/
def folded (r : Request) : Request := { contents r with Headers := { pairs := r.Headers.pairs.map (fun p => ⟨lower p.Key, p.Value⟩) } }

/-- A handler whose answer does not depend on the letter case of the names of headers. -/
def CaseBlind (E : Setup σ ρ) (h : Router.Handler Act) : Prop :=
  ∀ r r' w w' body, folded r = folded r' → Holds E w body → Holds E w' body →
    ∃ f q q' left left', (h r).run E.P E.maxAlloc w = (some (f, q), left) ∧ (h r').run E.P E.maxAlloc w' = (some (f, q'), left')

end Indigo.Spec
