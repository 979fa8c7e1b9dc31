/-
Specification of programs which make the same registrations in another order.
-/
import Verif.Spec.EveryRouter

namespace Indigo.Spec
open Indigo.Router (Op)
open Indigo.Spec.Router

variable {m : Type → Type}

/-- Calls which make a group. -/
def makesGroup : Op m → Bool
  | .group .. => true
  | _ => false

/-- Calls which add middlewares to the router `r`. -/
def addsMiddlewares (r : Nat) : Op m → Bool
  | .use r' _ => r' = r
  | _ => false

/-- Calls which register error handlers. -/
def handlesErrors : Op m → Bool
  | .routeError .. => true
  | _ => false

/-- Calls which add mutators or aliases to the router `r`. -/
def changesRequests (r : Nat) : Op m → Bool
  | .mutator r' _ => r' = r
  | .alias r' _ _ => r' = r
  | _ => false

/-- Calls which register routes or catchers. -/
def registers : Op m → Bool
  | .route .. => true
  | .catch .. => true
  | _ => false

/-- The same calls in another order: groups are made in the same order and still before they are used; the middlewares of each router, its mutators and aliases, and the error handlers come in the same order among themselves.
Otherwise the order may be any other one: routes and catchers before others, before or after the middlewares which are around them, and so on. -/
structure Reordered (ops ops' : List (Op m)) : Prop where
  groups : ops.filter makesGroup = ops'.filter makesGroup
  middlewares : ∀ r, ops.filter (addsMiddlewares r) = ops'.filter (addsMiddlewares r)
  errors : ops.filter handlesErrors = ops'.filter handlesErrors
  mutators : ∀ r, ops.filter (changesRequests r) = ops'.filter (changesRequests r)
  others : (ops.filter registers).Perm (ops'.filter registers)
  before : WellReferenced ops'

/-- There is no choice between registrations: no two catchers have the same prefix, and if there are variables, no two routes are taken for the same template. -/
structure NoTies (ops : List (Op m)) : Prop where
  catchers : ((catchers ops).map (·.1)).Nodup
  routes : HasVariables ops → ∀ d ∈ declared ops, ∀ d' ∈ declared ops, Radix.meant d.1.1 = Radix.meant d'.1.1 → d.1.1 = d'.1.1

/-- Two requests for which a route was found, which say the same but for the order of the allowed methods. -/
def AlikeFound (r r' : Request) : Prop := ∃ base ms ms', ms.Perm ms' ∧ r = allowing base ms ∧ r' = allowing base ms'

/-- Two requests for which no route was found, which say the same but for values of variables left from routes which were tried. -/
def AlikeLost (r r' : Request) : Prop := ∃ p, r' = { r with Params := p }

end Indigo.Spec
