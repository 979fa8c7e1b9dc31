/-
Specification: what a server does on a connection on which anything at all may come.
-/
import Verif.Spec.Every

namespace Indigo.Spec
open Serve (Setup Visit Ended)
variable {σ ρ : Type}

/-- The requests among the calls of the router. -/
def requestsOf (vs : List (Visit σ)) : List Request :=
  vs.filterMap (fun v => match v with
    | .request seen _ _ _ => some seen
    | .error _ _ _ _ => none)

/-- A call of the router, after the calls `before`, as it is recorded: a request is in a version the server supports, with a method it knows and a path which is not empty, and the connection has not been hijacked; an error is one of those heads are refused with, or the one
by which the connection is closed. The router is in the state in which the requests before have left it, and what is recorded is what it does. -/
def Happened (E : Setup σ ρ) (st : ρ) (before : List (Visit σ)) : Visit σ → Prop
  | .request seen world answer left => seen.wasHijacked = false ∧ (∃ v, versionName seen.Proto = some v) ∧ seen.Path ≠ [] ∧ seen.Method ≠ .Unknown ∧
      Answers E (routerAfter E st (requestsOf before)) seen world (answer, left)
  | .error seen e answer left => (e = closeError ∨ ∃ h ∈ headErrors, e = .http h) ∧ Told E (routerAfter E st (requestsOf before)) seen e (answer, left)

/-- A router whose handlers answer, whatever request (in a version the server supports, with a method it knows and a path which is not empty) they are called with, with responses which say themselves how long they are; so does the error handler about heads which are refused. They do not panic, do not hijack the connection,
and leave method and protocol of the request object alone. -/
structure Steady (E : Setup σ ρ) (defaults : List (Bytes × Bytes)) (st : ρ) : Prop where
  request : ∀ history seen world, (∃ v, versionName seen.Proto = some v) → seen.Path ≠ [] → seen.Method ≠ .Unknown → ∃ f req left, Answers E (routerAfter E st history) seen world (some (f, req), left) ∧
    left.hijacked = false ∧ Readable defaults (answeredIn seen) f ∧ req.Method = seen.Method ∧ req.Proto = seen.Proto
  error : ∀ history seen e (world : Act.World σ), (e = closeError ∨ ∃ h ∈ headErrors, e = .http h) → world.hijacked = false →
    ∃ f req left, (E.router.onError (routerAfter E st history) seen e).1.run E.P E.maxAlloc world = (some (f, req), left) ∧
      left.hijacked = false ∧ ((∃ h ∈ headErrors, e = .http h) → Readable defaults seen.Proto f) ∧ req.Method = seen.Method ∧ req.Proto = seen.Proto

/-- The messages `a` are the answer given in a call of the router, after calls with the requests `history`: code, header fields and body (or attachment) are those of the response. Its version is the one of the
request, unless this asks for another one, and then there is an interim response before it. -/
def AnswerOf (defaults : List (Bytes × Bytes)) (history : List Request) (seen : Request) (f : Fields) (a : Option Msg × Msg) : Prop :=
  Interim defaults history seen a.1 ∧ versionName (answeredIn seen) = some a.2.version ∧ a.2.code = f.Code ∧
    a.2.rest = (if seen.Method = .HEAD then [] else sentBody f) ∧ SaysFields defaults f a.2.fields

/-- The message `m` is the answer of an error handler, called with the request object `seen`. -/
def ExcuseOf (defaults : List (Bytes × Bytes)) (seen : Request) (f : Fields) (m : Msg) : Prop :=
  versionName seen.Proto = some m.version ∧ m.code = f.Code ∧
    m.rest = (if seen.Method = .HEAD then [] else sentBody f) ∧ SaysFields defaults f m.fields

end Indigo.Spec
