/-
Model of router/inbuilt/predicates.go and resource.go.
-/
import Verif.Model.Router

namespace Indigo.Router
variable {m : Type → Type}

/-- The names of the shorthands. -/
inductive Verb
  | Get | Head | Post | Put | Delete | Connect | Options | Trace | Patch
  deriving DecidableEq, Repr

/-- router/inbuilt/predicates.go:13-64: `router.Get(path, handler, middlewares...)`, ..., as calls of `Route` on the
router with the index `r`. -/
def verb (v : Verb) (r : Nat) (path : Bytes) (handler : Handler m) (mws : List (Middleware m)) : Op m :=
  match v with
  | .Get => .route r .GET path handler mws
  | .Head => .route r .HEAD path handler mws
  | .Post => .route r .POST path handler mws
  | .Put => .route r .PUT path handler mws
  | .Delete => .route r .DELETE path handler mws
  | .Connect => .route r .CONNECT path handler mws
  | .Options => .route r .OPTIONS path handler mws
  | .Trace => .route r .TRACE path handler mws
  | .Patch => .route r .PATCH path handler mws

namespace Resource

/-- A call on a resource (`static` with the handler of `Static`, see Model/Static). -/
inductive Call (m : Type → Type)
  | use (mws : List (Middleware m))
  | catch (pre : Bytes) (handler : Handler m) (mws : List (Middleware m))
  | route (meth : Method) (handler : Handler m) (mws : List (Middleware m))
  | verb (v : Verb) (handler : Handler m) (mws : List (Middleware m))

/-- router/inbuilt/resource.go:25-102: each method is a call on the group. -/
def call (group : Nat) : Call m → Op m
  | .use mws => .use group mws
  | .catch pre handler mws => .catch group pre handler mws
  | .route meth handler mws => .route group meth [] handler mws
  | .verb v handler mws => Router.verb v group [] handler mws

/-- router/inbuilt/resource.go:17-21 `Resource` on the router `r`, with calls on the result; `group` is the index of
the new group. -/
def make (r : Nat) (path : Bytes) (group : Nat) (calls : List (Call m)) : List (Op m) :=
  .group r path :: calls.map (call group)

end Resource
end Indigo.Router
