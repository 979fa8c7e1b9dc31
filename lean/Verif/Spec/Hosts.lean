/-
Specification of several programs behind a virtual router: which one a request is for.
-/
import Verif.Spec.Program
import Verif.Spec.Virtual

namespace Indigo.Spec
open Indigo.Router (Op Runtime)
open Indigo.Spec.Virtual

/-- A program: the calls which made its router, the router they made, and how it looks up paths. -/
structure Tenant where
  ops : List (Op Act)
  router : Runtime Act
  lookup : Lookup

/-- Who answers a request. -/
inductive Answerer
  | tenant (t : Tenant)
  | refusal (code : Status.Code)

/-- The default program, the one which was named last; without any, a refusal. -/
def orRefuse (vops : List (Virtual.Op Tenant)) (code : Status.Code) : Answerer :=
  match (defaultsRegistered vops).getLast? with
  | some t => .tenant t
  | none => .refusal code

/-- Who answers a request with these values of `Host`: with one, the program registered first for this host (the value as it was sent is
compared, up to letter case, with the hosts as they were registered without `www.` and default ports, see C44), or the default one, or
421 is answered; without any, the default one, or 400; with several, 400. -/
def answerer (vops : List (Virtual.Op Tenant)) : List Bytes → Answerer
  | [] => orRefuse vops Status.BadRequest
  | [v] =>
    match (hostsRegistered vops).find? (fun e => lower (bare e.1) == lower v) with
    | some e => .tenant e.2
    | none => orRefuse vops Status.MisdirectedRequest
  | _ => .refusal Status.BadRequest

/-- The values of `Host` in a head, whatever the letter case of the name. -/
def hostsSent (h : Head) : List Bytes := (h.fields.filter (fun f => lower f.name == b!"host")).map Field.value

/-- Letters, digits, `-`, `.` and `:` only in the names of the headers and in the values of `Host`. -/
def PlainHead (h : Head) : Prop :=
  (∀ f ∈ h.fields, ∀ c ∈ f.name, HostChar c) ∧ ∀ v ∈ hostsSent h, ∀ c ∈ v, HostChar c

end Indigo.Spec
