/-
Specification of programs to which routes are added.
-/
import Verif.Spec.Reorder
import Verif.Model.Serve

namespace Indigo.Spec
open Indigo.Router (Op)
open Indigo.Spec.Router

variable {m : Type → Type}

/-- Only routes are registered. -/
def OnlyRoutes (news : List (Op m)) : Prop := ∀ op ∈ news, ∃ r meth path h mws, op = .route r meth path h mws

/-- The paths of the routes which are added to a program. -/
def addedPaths (ops news : List (Op m)) : List Bytes :=
  news.flatMap (fun
    | .route r _ path _ _ => [UriNormalize.normalize (prefixOf ops r ++ path)]
    | _ => [])

/-- The path with these sections goes another way than the template: at some place the template has another section, literally; and no route there was before has a variable before this place. -/
def Elsewhere (ops : List (Op m)) (t : Radix.Tmpl) (ss : List Bytes) : Prop :=
  ∃ (i : Nat) (s : Bytes), t[i]? = some (Radix.Part.lit s) ∧ ss[i]? ≠ some s ∧ ∀ t0 ∈ templatesOf ops, ∀ j < i, ∀ n, t0[j]? ≠ some (Radix.Part.var n)

/-- A call of the router which is about another path than the added ones, and not a TRACE request (their answers repeat earlier requests). -/
def AboutOthers {σ : Type} (ops news : List (Op Act)) : Serve.Visit σ → Prop
  | .request req _ _ _ => (arriving ops req).Path ∉ addedPaths ops news ∧ (mutated ops req).Method ≠ .TRACE
  | .error req _ _ _ => (mutated ops req).Method ≠ .TRACE

end Indigo.Spec
