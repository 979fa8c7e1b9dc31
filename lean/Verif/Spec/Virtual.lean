/-
Specification of virtual hosts.
-/
import Verif.Model.Virtual

namespace Indigo.Spec.Virtual

/-- A host without the prefix `www.` and without the ports 80 and 443. -/
def bare (host : Bytes) : Bytes :=
  let host := if b!"www." <+: host then host.drop 4 else host
  if b!":80" <:+ host then host.take (host.length - 3)
  else if b!":443" <:+ host then host.take (host.length - 4)
  else host

/-- Two hosts are the same up to letter case, default port and `www.`. -/
def SameHost (a b : Bytes) : Prop := lower (bare a) = lower (bare b)

/-- A host meaning any host: `0.0.0.0`, with any port. -/
def IsAny (host : Bytes) : Prop := bare host = b!"0.0.0.0" ∨ b!"0.0.0.0:" <+: bare host

instance (host : Bytes) : Decidable (IsAny host) := by unfold IsAny; infer_instance

/-- Characters of hosts: letters, digits, `-`, `.`, `:`. -/
def HostChar (c : Byte) : Prop :=
  (97 ≤ c ∧ c ≤ 122) ∨ (65 ≤ c ∧ c ≤ 90) ∨ (48 ≤ c ∧ c ≤ 57) ∨ c = 45 ∨ c = 46 ∨ c = 58

/-- The values of the header `Host`, whose name is in any letter case. -/
def hostsOf (req : Request) : List Bytes :=
  (req.Headers.pairs.filter (fun p => lower p.Key == b!"host")).map (·.Value)

/-- The routers registered for certain hosts, in order. -/
def hostsRegistered {α : Type} (ops : List (Virtual.Op α)) : List (Bytes × α) :=
  ops.filterMap fun
    | .host h r => if IsAny h then none else some (h, r)
    | .default _ => none

/-- The routers registered as the default one, in order: by `Default`, or by `Host` for any host. -/
def defaultsRegistered {α : Type} (ops : List (Virtual.Op α)) : List α :=
  ops.filterMap fun
    | .host h r => if IsAny h then some r else none
    | .default r => some r

/-- What happens to a router. -/
inductive Event
  | request (req : Request)
  | error (req : Request) (err : GoErr)

/-- The request it is about. -/
def Event.req : Event → Request
  | .request req => req
  | .error req _ => req

/-- Without the buffers of the storage of the headers, which are not observable. -/
def Event.forget : Event → Event
  | .request req => .request { req with Headers := { pairs := req.Headers.pairs } }
  | .error req err => .error { req with Headers := { pairs := req.Headers.pairs } } err

/-- Who gets a request. -/
inductive Target
  | router (i : Nat)
  | default
  | nobody
  deriving DecidableEq, Repr

/-- Who gets a request: with one `Host`, the first router which is registered for it, otherwise the default router; without any,
the default router; with several of them, nobody. (The host of the request is compared as it is, see C44.) -/
def target {α : Type} (ops : List (Virtual.Op α)) (req : Request) : Target :=
  match hostsOf req with
  | [] => .default
  | [v] =>
    match (hostsRegistered ops).findIdx? (fun e => lower (bare e.1) == lower v) with
    | some i => .router i
    | none => .default
  | _ => .nobody

/-- A router after an event. -/
def next {m : Type → Type} {ρ : Type} (I : RouterImpl m ρ) (x : ρ) : Event → ρ
  | .request req => (I.onRequest x req).2
  | .error req err => (I.onError x req err).2

/-- A router after a history. -/
def after {m : Type → Type} {ρ : Type} (I : RouterImpl m ρ) (x : ρ) (events : List Event) : ρ := events.foldl (next I) x

end Indigo.Spec.Virtual
