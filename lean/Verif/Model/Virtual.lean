/-
Model of router/router.go, router/virtual/virtual.go and router/simple/simple.go.
-/
import Verif.Model.Router

namespace Indigo

/-- router/router.go:13-16 `Router`: any implementation with a state `ρ`. The handlers' actions are in the monad `m`,
as in `Router.Handler`. -/
structure RouterImpl (m : Type → Type) (ρ : Type) where
  onRequest : ρ → Request → m (Fields × Request) × ρ
  onError : ρ → Request → GoErr → m (Fields × Request) × ρ

namespace Virtual

/-- Calls building a virtual router; fabrics (router/router.go:8-10) are values of a type `α`. -/
inductive Op (α : Type)
  | host (host : Bytes) (other : α)
  | default (def_ : α)

/-- router/virtual/virtual.go:18-21 `Router`, with 11-14 `virtualFabric` as a pair. -/
structure Fabric (α : Type) where
  routers : List (Bytes × α) := []
  defaultRouter : Option α := none

/-- router/virtual/virtual.go:30-50 `Host`, `Default`. -/
def step {α : Type} (r : Fabric α) : Op α → Fabric α
  | .host host other =>
    let host := Domain.normalize host
    if Domain.trimPort host = Address.DefaultAddr then { r with defaultRouter := some other }
    else { r with routers := r.routers ++ [(host, other)] }
  | .default def_ => { r with defaultRouter := some def_ }

/-- router/virtual/virtual.go:24-26 `New` and a sequence of calls. -/
def build {α : Type} (ops : List (Op α)) : Fabric α := ops.foldl step {}

/-- router/virtual/virtual.go:79-82 `runtimeRouter`, with 72-75 `virtualRouter` as a pair. -/
structure Runtime (ρ : Type) where
  routers : List (Bytes × ρ)
  defaultRouter : Option ρ

/-- router/virtual/virtual.go:52-70 `Initialize`; `init` initializes the fabrics. -/
def initRouter {α ρ : Type} (init : α → ρ) (r : Fabric α) : Runtime ρ :=
  { routers := r.routers.map (fun f => (f.1, init f.2)), defaultRouter := r.defaultRouter.map init }

/-- The router `getRouter` finds: one of the routers, the default one, or none and a response with this code. -/
inductive Choice
  | host (i : Nat)
  | default
  | refuse (code : Status.Code)
  deriving DecidableEq, Repr

variable {m : Type → Type} {ρ : Type}

/-- router/virtual/virtual.go:119-123: the loop of `getRouter`, from position `i`. -/
def find (F : Fold) (host : Bytes) : Nat → List (Bytes × ρ) → Option Nat
  | _, [] => none
  | i, r :: rs => if F.eq r.1 host then some i else find F host (i + 1) rs

/-- The default router, if there is one, or a response with this code. -/
def orDefault (r : Runtime ρ) (code : Status.Code) : Choice :=
  match r.defaultRouter with
  | some _ => .default
  | none => .refuse code

/-- router/virtual/virtual.go:107-126 `getRouter`, and the headers afterwards (`Values` fills a buffer in them). -/
def getRouter (F : Fold) (r : Runtime ρ) (headers : Storage) : Choice × Storage :=
  let (hosts, headers) := headers.values F b!"host"
  (match hosts with
   | [] => orDefault r Status.BadRequest
   | [host] =>
     match find F host 0 r.routers with
     | some i => .host i
     | none => orDefault r Status.MisdirectedRequest
   | _ => .refuse Status.BadRequest, headers)

/-- Passes the request to the chosen router by `call`. `http.Code(request, code)` is a new response with this code. -/
def dispatch [Monad m] (r : Runtime ρ) (request : Request) (call : ρ → m (Fields × Request) × ρ) :
    Choice → m (Fields × Request) × Runtime ρ
  | .host i =>
    match r.routers[i]? with
    | none => (pure (Fields.new, request), r)
    | some (d, x) =>
      let (res, x) := call x
      (res, { r with routers := r.routers.set i (d, x) })
  | .default =>
    match r.defaultRouter with
    | none => (pure (Fields.new, request), r)
    | some x =>
      let (res, x) := call x
      (res, { r with defaultRouter := some x })
  | .refuse code => (pure (Fields.new.code code, request), r)

/-- router/virtual/virtual.go:84-91 `OnRequest`. -/
def onRequest [Monad m] (F : Fold) (I : RouterImpl m ρ) (r : Runtime ρ) (request : Request) :
    m (Fields × Request) × Runtime ρ :=
  let (choice, headers) := getRouter F r request.Headers
  let request := { request with Headers := headers }
  dispatch r request (fun x => I.onRequest x request) choice

/-- router/virtual/virtual.go:93-100 `OnError`. -/
def onError [Monad m] (F : Fold) (I : RouterImpl m ρ) (r : Runtime ρ) (request : Request) (err : GoErr) :
    m (Fields × Request) × Runtime ρ :=
  let (choice, headers) := getRouter F r request.Headers
  let request := { request with Headers := headers }
  dispatch r request (fun x => I.onError x request err) choice

/-- router/virtual/virtual.go:77: the virtual router is a router. -/
def impl [Monad m] (F : Fold) (I : RouterImpl m ρ) : RouterImpl m (Runtime ρ) where
  onRequest := onRequest F I
  onError := onError F I

end Virtual

namespace Simple

/-- router/simple/simple.go:12-14 `Router`. -/
structure Router (m : Type → Type) where
  handler : Indigo.Router.Handler m
  errHandler : Indigo.Router.Handler m

/-- router/simple/simple.go:27-35 `OnRequest`, `OnError`. -/
def impl (m : Type → Type) : RouterImpl m (Router m) where
  onRequest r request := (r.handler request, r)
  onError r request err := (r.errHandler { request with Env := { request.Env with Error := some err } }, r)

end Simple

/-- router/inbuilt/inbuilt.go:46: the built-in router is a router. `panicked` is what a panic of the router is in the
monad of the handlers. -/
def Router.impl {m : Type → Type} [Monad m] (F : Fold) (panicked : m (Fields × Request)) :
    RouterImpl m (Router.Runtime m) where
  onRequest r request := (r.onRequest F request).getD (panicked, r)
  onError r request err := r.onError F request err

end Indigo
