/-
Specification of applications whose answers depend on nothing but what is sent to them.
-/
import Verif.Spec.Replies

namespace Indigo.Spec
open Serve (Setup)
variable {σ ρ : Type}

/-- The environment of a request: the encryption of the connection is said to the first one only (see `C23_encryption_violation`). -/
def environment (enc : EncToken) (before : List Sending) : Environment :=
  if before = [] then { Encryption := enc } else {}

/-- What the router was called with, for `good` requests sent one after another: `history` is what was delivered for `before`. -/
inductive HeardSo (E : Setup σ ρ) (good : Sending → Prop) (maxTokens : Nat) (enc : EncToken) (remote : Bytes) (post : List (Bytes × Option GoErr)) : List Sending → List Request → Prop where
  | none : HeardSo E good maxTokens enc remote post [] []
  | next {before history s after seen world} : HeardSo E good maxTokens enc remote post before history → good s →
      Delivered E maxTokens remote post (environment enc before) s after seen world → HeardSo E good maxTokens enc remote post (before ++ [s]) (history ++ [seen])

/-- A router whose answer to a request, `reply before s`, is a function of this request `s` and of the requests `before` on the same connection: of their heads, paths and bodies, but not
of how the bytes of them have come. Handlers do not panic and do not hijack the connection, and leave some fields of the request alone; the error handler neither, when it is told that the connection is being closed. -/
structure Repeatable (E : Setup σ ρ) (good : Sending → Prop) (maxTokens : Nat) (enc : EncToken) (remote : Bytes) (st : ρ) (reply : List Sending → Sending → Fields) : Prop where
  request : ∀ before history post s after seen world, HeardSo E good maxTokens enc remote post before history → good s →
    Delivered E maxTokens remote post (environment enc before) s after seen world →
    ∃ req left, Answers E (routerAfter E st history) seen world (some (reply before s, req), left) ∧ left.hijacked = false ∧
      req.Method = seen.Method ∧ req.Connection = seen.Connection ∧ req.Upgrade = seen.Upgrade
  error : ∀ history seen (world : Act.World σ), world.hijacked = false →
    ((E.router.onError (routerAfter E st history) seen closeError).1.run E.P E.maxAlloc world).1.isSome ∧
    ((E.router.onError (routerAfter E st history) seen closeError).1.run E.P E.maxAlloc world).2.hijacked = false

/-- What a request says: everything but the memory its storages use for lists of keys and of values, and cookies read earlier. -/
def contents (r : Request) : Request :=
  { r with
    Query := { r.Query with params := { pairs := r.Query.params.pairs } }
    Params := { pairs := r.Params.pairs }
    Headers := { pairs := r.Headers.pairs }
    jar := none }

/-- A function of a request and, if it asks for it, of the whole body. -/
inductive Asking
  | answer (f : Fields)
  | whole (next : Option Bytes → Option GoErr → Fields)

/-- The handler which answers with a function of what the request says, and possibly of the body as `Bytes` returns it. -/
def handlerOf (g : Request → Asking) : Router.Handler Act := fun r =>
  match g (contents r) with
  | .answer f => pure (f, r)
  | .whole next => do
    match ← Act.call .bytes with
    | .whole d e => pure (next d e, r)
    | _ => Act.panic

/-- The answer of a function, given the body. -/
def Asking.given (body : Bytes) : Asking → Fields
  | .answer f => f
  | .whole next => next (some body) none

/-- What a handler is called with: a body which has been announced just now and has not been touched, which, retrieved to its end, is `body`, and for which there is room in memory. -/
structure Holds (E : Setup σ ρ) (w : Act.World σ) (body : Bytes) : Prop where
  hijacked : w.hijacked = false
  fresh : w.body.eof = false
  room : w.body.isChunked = true ∨ w.body.contentLength ≤ E.maxAlloc
  whole : ∃ ds s', Pieces E.P (w.body, w.client) ds .eof s' ∧ ds.flatten = body

/-- A handler whose answer depends on what the request says and on the body as a whole, and on nothing else; and which does answer. -/
def Determined (E : Setup σ ρ) (h : Router.Handler Act) : Prop :=
  ∀ r r' w w' body, contents r = contents r' → Holds E w body → Holds E w' body →
    ∃ f q q' left left', (h r).run E.P E.maxAlloc w = (some (f, q), left) ∧ (h r').run E.P E.maxAlloc w' = (some (f, q'), left')

end Indigo.Spec
