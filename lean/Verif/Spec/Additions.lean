/-
Specification of what additions to a program are about.
-/
import Verif.Spec.Reorder
import Verif.Spec.Virtual

namespace Indigo.Spec
open Indigo.Router (Op)
open Indigo.Spec.Router

variable {m : Type → Type}

/-- The router `r` is the router `q` or nested in it. -/
def Within (ops : List (Op m)) (q r : Nat) : Prop := ∃ p, (places ops)[r]? = some p ∧ q ∈ p.line

/-- The route with this path and method is registered on the router `q` or in a group nested in it. -/
def RouteWithin (ops : List (Op m)) (q : Nat) (path : Bytes) (meth : Method) : Prop :=
  ∃ r p h mws, Op.route r meth p h mws ∈ ops ∧ UriNormalize.normalize (prefixOf ops r ++ p) = path ∧ Within ops q r

/-- The catcher with this prefix is registered on the router `q` or in a group nested in it. -/
def CatcherWithin (ops : List (Op m)) (q : Nat) (pre : Bytes) : Prop :=
  ∃ r p h mws, Op.catch r p h mws ∈ ops ∧ GoPath.join (prefixOf ops r) p = pre ∧ Within ops q r

/-- The request is for this virtual host: it has one header `Host`, whose value is the host without `www.` and the default ports. -/
def forHost (F : Fold) (host : Bytes) (req : Request) : Bool :=
  match (req.Headers.pairs.filter (fun p => F.eq p.Key b!"host")).map (·.Value) with
  | [v] => F.eq (Virtual.bare host) v
  | _ => false

/-- The request is for this virtual host, and not for one of those which are registered already. -/
def forNewHost {α : Type} (F : Fold) (vops : List (Indigo.Virtual.Op α)) (host : Bytes) (req : Request) : Bool :=
  forHost F host req && !(Virtual.hostsRegistered vops).any (fun e => forHost F e.1 req)

end Indigo.Spec
