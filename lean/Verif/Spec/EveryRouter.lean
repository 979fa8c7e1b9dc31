/-
Specification of what every router does, whatever the texts of its routes.
-/
import Verif.Spec.Program
import Verif.Spec.RadixExact

namespace Indigo.Spec
open Indigo.Router (Op)
open Indigo.Spec.Router

variable {m : Type → Type}

/-- What the routes are taken for. -/
def templatesOf (ops : List (Op m)) : List Radix.Tmpl := (declared ops).filterMap (fun d => Radix.meant d.1.1)

/-- One of the routes has a variable. -/
def HasVariables (ops : List (Op m)) : Prop := ∃ t ∈ templatesOf ops, ∃ n, Radix.Part.var n ∈ t

/-- For each template one route which is taken for it (there can be several), if there is any. -/
structure Picks (ops : List (Op m)) (pick : Radix.Tmpl → Option Bytes) : Prop where
  sound : ∀ t route, pick t = some route → route ∈ (declared ops).map (·.1.1) ∧ Radix.meant route = some t
  complete : ∀ t ∈ templatesOf ops, (pick t).isSome = true

/-- The route picked for the template of which the path is an instance, literal sections taking precedence. The root is always found: it has no methods if nothing is registered for it. If no route is found,
values of the variables of a template's beginning may be left among the parameters. -/
def Lookup.picked (ops : List (Op m)) (pick : Radix.Tmpl → Option Bytes) : Lookup where
  found r route values := ∃ t path, r.Path = SLASH :: path ∧ (pick t = some route ∨ (t = [] ∧ pick [] = none ∧ route = b!"/")) ∧
    Radix.Instance t (Radix.sections path) values ∧ Radix.Unshadowed (templatesOf ops) t (Radix.sections path)
  left r params := params = r.Params ∨ ∃ path t i values, r.Path = SLASH :: path ∧ t ∈ templatesOf ops ∧
    Radix.Instance (t.take i) ((Radix.sections path).take i) values ∧
    params = { r.Params with pairs := r.Params.pairs ++ values.map (fun e => ⟨e.1, e.2⟩) }

/-- How a router looks up paths. -/
inductive Looks (ops : List (Op m)) : Lookup → Prop
  | static : ¬ HasVariables ops → Looks ops (.static ops)
  | picked {pick} : HasVariables ops → Picks ops pick → Looks ops (.picked ops pick)

end Indigo.Spec
