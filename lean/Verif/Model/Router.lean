/-
Model of router/inbuilt: inbuilt.go, registrar.go, types.go, groups.go, route.go, middlewares.go, catchers.go,
aliases.go, mutator.go, mutator/alias.go, trace.go, defaulterrhandlers.go, and of `path.Join` of the standard library.
-/
import Verif.Model.Request
import Verif.Model.Response
import Verif.Model.Radix
import Verif.Model.Address

namespace Indigo

/-! ### `path.Clean` and `path.Join` (Go standard library) -/
namespace GoPath

/-- The elements between slashes. `cur` is the element being read. -/
def elems (cur : Bytes) : Bytes → List Bytes
  | [] => [cur]
  | c :: cs => if c = SLASH then cur :: elems [] cs else elems (cur ++ [c]) cs

/-- One element of `path.Clean`: `out` are the elements kept so far, last one first. -/
def cleanStep (rooted : Bool) (out : List Bytes) (e : Bytes) : List Bytes :=
  if e = [] ∨ e = b!"." then out
  else if e = b!".." then
    match out with
    | [] => if rooted then [] else [b!".."]
    | o :: os => if o = b!".." then b!".." :: o :: os else os
  else e :: out

/-- Elements joined with slashes. -/
def joinElems : List Bytes → Bytes
  | [] => []
  | [e] => e
  | e :: es => e ++ SLASH :: joinElems es

/-- `path.Clean`. -/
def clean (p : Bytes) : Bytes :=
  let rooted := p.head? = some SLASH
  let out := ((elems [] p).foldl (cleanStep rooted) []).reverse
  if rooted then SLASH :: joinElems out
  else if out = [] then b!"." else joinElems out

/-- `path.Join` of two elements. -/
def join (a b : Bytes) : Bytes :=
  if a = [] ∧ b = [] then []
  else if a = [] then clean b
  else if b = [] then clean a
  else clean (a ++ SLASH :: b)

end GoPath

namespace Router

/-- router/inbuilt/internal/types/types.go:11 `Handler`: what the handler does is described in an arbitrary monad `m`
(reading the body, panicking, hijacking, ...). It returns the response and the request as it leaves it.
Handlers are not nil: registering nil, which panics when it is called, is not modelled. -/
abbrev Handler (m : Type → Type) := Request → m (Fields × Request)

/-- router/inbuilt/middlewares.go:10 `Middleware`, as a function from the next handler to the handler around it. -/
abbrev Middleware (m : Type → Type) := Handler m → Handler m

/-- router/inbuilt/internal/types/types.go:13 `Mutator`. Simplification: a mutator does nothing but change the
request. -/
abbrev Mutator := Request → Request

/-- router/inbuilt/catchers.go:11-14 `Catcher`. -/
structure Catcher (m : Type → Type) where
  Prefix : Bytes
  Handler : Router.Handler m

section
variable {m : Type → Type}

/-- router/inbuilt/middlewares.go:27-37 `compose`: from the last middleware to the first. -/
def compose (handler : Handler m) (middlewares : List (Middleware m)) : Handler m :=
  middlewares.reverse.foldl (fun handler middleware => middleware handler) handler

/-! ### registrar.go -/

/-- router/inbuilt/registrar.go:12-16 `registrar` (`usedMethods` is never used). -/
structure Registrar (m : Type → Type) where
  routes : GoMap Bytes (GoMap Method (Handler m)) := []
  isDynamic : Bool := false

/-- The order in which `range` visits the entries of maps, and what `sort.Slice` makes of the catchers: anything the
language and the standard library allow. Simplification: iterating twice over the same map gives the same order. -/
structure Env (m : Type → Type) where
  routes : GoMap Bytes (GoMap Method (Handler m)) → GoMap Bytes (GoMap Method (Handler m))
  routes_perm : ∀ r, (routes r).Perm r
  methods : GoMap Method (Handler m) → GoMap Method (Handler m)
  methods_perm : ∀ r, (methods r).Perm r
  sort : List (Catcher m) → List (Catcher m)
  sort_perm : ∀ l, (sort l).Perm l
  /-- router/inbuilt/inbuilt.go:66-68: longer prefixes first -/
  sort_sorted : ∀ l, (sort l).Pairwise (fun a b => a.Prefix.length ≥ b.Prefix.length)

namespace Registrar

/-- router/inbuilt/registrar.go:24-40 `Add`; `none` is an error (on which `Route` panics) or the panic of
`MustParse`. -/
def add (r : Registrar m) (path : Bytes) (meth : Method) (handler : Handler m) : Option (Registrar m) :=
  let path := UriNormalize.normalize path
  let methodsMap := (r.routes.get? path).getD []
  if (methodsMap.get? meth).isSome then none
  else
    match Radix.parse path with
    | .error _ => none
    | .ok t =>
      some { routes := r.routes.set path (methodsMap.set meth handler)
             isDynamic := r.isDynamic || !Radix.isStatic t }

/-- router/inbuilt/registrar.go:46-56: the inner loop of `Merge`. -/
def mergeMethods (path : Bytes) : GoMap Bytes (GoMap Method (Handler m)) → List (Method × Handler m) →
    Option (GoMap Bytes (GoMap Method (Handler m)))
  | routes, [] => some routes
  | routes, (meth, handler) :: rest =>
    let methodsMap := (routes.get? path).getD []
    if (methodsMap.get? meth).isSome then none
    else mergeMethods path (routes.set path (methodsMap.set meth handler)) rest

/-- router/inbuilt/registrar.go:45-57: the outer loop of `Merge`. -/
def mergePaths (env : Env m) : GoMap Bytes (GoMap Method (Handler m)) → List (Bytes × GoMap Method (Handler m)) →
    Option (GoMap Bytes (GoMap Method (Handler m)))
  | routes, [] => some routes
  | routes, (path, v) :: rest =>
    match mergeMethods path routes (env.methods v) with
    | none => none
    | some routes => mergePaths env routes rest

/-- router/inbuilt/registrar.go:42-60 `Merge`; `none` is an error. -/
def merge (env : Env m) (r another : Registrar m) : Option (Registrar m) :=
  match mergePaths env r.routes (env.routes another.routes) with
  | none => none
  | some routes => some { routes := routes, isDynamic := r.isDynamic || another.isDynamic }

/-- router/inbuilt/registrar.go:62-68 `Apply`. -/
def apply (r : Registrar m) (f : Handler m → Handler m) : Registrar m :=
  { r with routes := r.routes.map (fun e => (e.1, e.2.map (fun e => (e.1, f e.2)))) }

end Registrar

/-- router/inbuilt/internal/types/types.go:12 `MethodsMap` (an array indexed by the method; nil is `none`). -/
abbrev MethodsMap (m : Type → Type) := Method → Option (Handler m)

/-- `methodsMap[meth] = handler` -/
def MethodsMap.set (mm : MethodsMap m) (meth : Method) (handler : Handler m) : MethodsMap m :=
  fun x => if x = meth then some handler else mm x

/-- router/inbuilt/types.go:14-17 `routesMapEntry`, router/inbuilt/internal/radix/tree.go:16-19 `Payload`. -/
structure Endpoint (m : Type → Type) where
  methodsMap : MethodsMap m := fun _ => none
  allow : Bytes := []

/-- The indices of a `MethodsMap`, in order. -/
def allMethods : List Method := .Unknown :: Method.list

/-- router/inbuilt/types.go:29-35: the loop of `getAllowString`. -/
def allowLoop (mm : MethodsMap m) : List Method → Bytes
  | [] => []
  | i :: rest =>
    match mm i with
    | none => allowLoop mm rest
    | some _ => i.toBytes ++ COMMA :: allowLoop mm rest

/-- router/inbuilt/types.go:28-38 `getAllowString`. -/
def getAllowString (mm : MethodsMap m) : Bytes :=
  ((allowLoop mm allMethods).reverse.dropWhile (· = COMMA)).reverse

/-- router/inbuilt/types.go:21-26 `routesMap.Add`. -/
def routesMapAdd (r : GoMap Bytes (Endpoint m)) (path : Bytes) (meth : Method) (handler : Handler m) :
    GoMap Bytes (Endpoint m) :=
  let entry := (r.get? path).getD {}
  let mm := MethodsMap.set entry.methodsMap meth handler
  r.set path { methodsMap := mm, allow := getAllowString mm }

/-- router/inbuilt/registrar.go:74-84 `AsMap`. -/
def asMap (env : Env m) (r : Registrar m) : GoMap Bytes (Endpoint m) :=
  (env.routes r.routes).foldl (fun rmap e =>
    (env.methods e.2).foldl (fun rmap h => routesMapAdd rmap e.1 h.1 h.2) rmap) []

/-- `strings.TrimSuffix(s, ",")` (Go standard library). -/
def trimSuffixComma (s : Bytes) : Bytes := if s.getLast? = some COMMA then s.dropLast else s

/-- router/inbuilt/registrar.go:90-103: the payload of one path. -/
def treePayload (env : Env m) (v : GoMap Method (Handler m)) : Endpoint m :=
  { methodsMap := (env.methods v).foldl (fun mm h => MethodsMap.set mm h.1 h.2) (fun _ => none)
    allow := trimSuffixComma ((env.methods v).flatMap (fun h => h.1.toBytes ++ [COMMA])) }

/-- router/inbuilt/registrar.go:86-107 `AsRadixTree`; `none` is a panic. -/
def asRadixTree (env : Env m) (r : Registrar m) : Option (Radix.Node (Endpoint m)) :=
  match Radix.Node.register (Radix.Node.new {}) ((env.routes r.routes).map (fun e => (e.1, treePayload env e.2))) with
  | .error _ => none
  | .ok tree => some tree

/-! ### Building a router -/

/-- router/inbuilt/inbuilt.go:25-34 `Router` (without the error handlers, which all groups share). -/
structure Rec (m : Type → Type) where
  prefix_ : Bytes := []
  mutators : List Mutator := []
  catchers : List (Catcher m) := []
  middlewares : List (Middleware m) := []
  registrar : Registrar m := {}
  children : List Nat := []

/-- The state of the construction: all routers (the root is the first one; others are known by their index), and the
error handlers. -/
structure World (m : Type → Type) where
  routers : List (Rec m)
  errHandlers : GoMap Status.Code (Handler m)

/-- A call of the API. `Resource` is `group` and calls with an empty path (resource.go); the methods of
predicates.go are `route`; `Static` is `catch` with a certain handler (static.go). -/
inductive Op (m : Type → Type)
  | group (r : Nat) (pre : Bytes)
  | use (r : Nat) (mws : List (Middleware m))
  | route (r : Nat) (meth : Method) (path : Bytes) (handler : Handler m) (mws : List (Middleware m))
  | routeError (r : Nat) (handler : Handler m) (codes : List Status.Code)
  | catch (r : Nat) (pre : Bytes) (handler : Handler m) (mws : List (Middleware m))
  | mutator (r : Nat) (f : Mutator)
  | alias (r : Nat) (source target : Bytes)

/-- router/inbuilt/mutator/alias.go:8-15 `Alias`. -/
def aliasMutator (source target : Bytes) : Mutator := fun request =>
  if request.Path = source then
    { request with Path := target, Env := { request.Env with AliasFrom := source } }
  else request

/-- router/inbuilt/route.go:11 `AllErrors`. -/
def AllErrors : Status.Code := 0

/-- Changes the router with this index; `none` if there is none (no Go program refers to such a router), or if the
change panics. -/
def World.modify (w : World m) (r : Nat) (f : Rec m → Option (Rec m)) : Option (World m) :=
  match w.routers[r]? with
  | none => none
  | some rec =>
    match f rec with
    | none => none
    | some rec => some { w with routers := w.routers.set r rec }

/-- One call of the API; `none` is a panic. groups.go:12-22 `Group`, middlewares.go:14-18 `Use`, route.go:14-23
`Route`, 46-56 `RouteError`, catchers.go:18-36 `Catch`, mutator.go:15-18 `Mutator`, aliases.go:11-13 `Alias`. -/
def step (w : World m) : Op m → Option (World m)
  | .group r pre =>
    match w.routers[r]? with
    | none => none
    | some parent =>
      some { w with
        routers := w.routers.set r { parent with children := parent.children ++ [w.routers.length] } ++
          [{ prefix_ := parent.prefix_ ++ pre }] }
  | .use r mws => w.modify r (fun rec => some { rec with middlewares := rec.middlewares ++ mws })
  | .route r meth path handler mws => w.modify r (fun rec =>
      match rec.registrar.add (rec.prefix_ ++ path) meth (compose handler mws) with
      | none => none
      | some reg => some { rec with registrar := reg })
  | .routeError r handler codes =>
    match w.routers[r]? with
    | none => none
    | some _ =>
      let codes := if codes.length = 0 then [AllErrors] else codes
      some { w with errHandlers := codes.foldl (fun hs code => hs.set code handler) w.errHandlers }
  | .catch r pre handler mws => w.modify r (fun rec =>
      let pre := GoPath.join rec.prefix_ pre
      if rec.catchers.any (fun c => c.Prefix = pre) then none
      else some { rec with catchers := rec.catchers ++ [⟨pre, compose handler mws⟩] })
  | .mutator r f => w.modify r (fun rec => some { rec with mutators := rec.mutators ++ [f] })
  | .alias r source target => w.modify r (fun rec =>
      some { rec with mutators := rec.mutators ++ [aliasMutator (GoPath.join rec.prefix_ source) target] })

/-- A sequence of calls. -/
def run (w : World m) : List (Op m) → Option (World m)
  | [] => some w
  | op :: ops =>
    match step w op with
    | none => none
    | some w => run w ops

section
variable [Monad m]

/-- router/inbuilt/defaulterrhandlers.go:15-17 `defaultAllErrorsHandler`. `text` are the messages of errors. -/
def defaultAllErrorsHandler (text : GoErr → Bytes) : Handler m := fun request =>
  pure (Fields.new.error text request.Env.Error [], request)

/-- router/inbuilt/defaulterrhandlers.go:19-23 `defaultMethodNotAllowedHandler`. (`Header` does not panic with one
value; see `Fields.header`.) -/
def defaultMethodNotAllowedHandler (F : Fold) (text : GoErr → Bytes) : Handler m := fun request =>
  let f := Fields.new.error text (some (.http Status.ErrMethodNotAllowed)) []
  pure ((f.header F b!"Allow" [request.Env.AllowedMethods]).getD f, request)

/-- router/inbuilt/inbuilt.go:37-45 `New`, defaulterrhandlers.go:8-13 `newErrorHandlers`. -/
def newWorld (F : Fold) (text : GoErr → Bytes) : World m :=
  { routers := [{}]
    errHandlers := [(AllErrors, defaultAllErrorsHandler text),
      (Status.MethodNotAllowed, defaultMethodNotAllowedHandler F text)] }

end

/-- router/inbuilt/groups.go:25-36: the loop of `prepare`; `child` prepares a child. -/
def prepareLoop (env : Env m) (child : Nat → Option (Rec m)) : Rec m → List Nat → Option (Rec m)
  | r, [] => some r
  | r, c :: cs =>
    match child c with
    | none => none
    | some c =>
      match r.registrar.merge env c.registrar with
      | none => none
      | some reg =>
        prepareLoop env child { r with registrar := reg, mutators := r.mutators ++ c.mutators,
                                       catchers := r.catchers ++ c.catchers } cs

/-- router/inbuilt/groups.go:24-42 `prepare` (with middlewares.go:20-24 `applyMiddlewares` and catchers.go:38-42
`applyCatchersMiddlewares`); `none` is an error. The result is the changed router; as every router is the child of at
most one other one, those which `prepare` changes on the way are not needed any more. Groups are younger than their
parents, so that the number of routers is enough fuel. -/
def prepare (env : Env m) (w : World m) : Nat → Nat → Option (Rec m)
  | 0, _ => none
  | fuel + 1, r =>
    match w.routers[r]? with
    | none => none
    | some rec =>
      match prepareLoop env (prepare env w fuel) rec rec.children with
      | none => none
      | some rec =>
        some { rec with
          registrar := rec.registrar.apply (fun h => compose h rec.middlewares)
          catchers := rec.catchers.map (fun c => { c with Handler := compose c.Handler rec.middlewares }) }

/-- The routing table: inbuilt.go:53-54, 56 `tree`, `routesMap`, `isStatic`. -/
inductive Table (m : Type → Type)
  | static (routesMap : GoMap Bytes (Endpoint m))
  | dynamic (tree : Radix.Node (Endpoint m))

/-- router/inbuilt/inbuilt.go:49-57 `runtimeRouter`. -/
structure Runtime (m : Type → Type) where
  mutators : List Mutator
  catchers : List (Catcher m)
  traceBuff : Bytes := []
  table : Table m
  errHandlers : GoMap Status.Code (Handler m)

/-- router/inbuilt/inbuilt.go:59-88 `Initialize` (with 185-189 `applyErrorHandlersMiddlewares`) of the root; `none` is
a panic. -/
def initRouter (env : Env m) (w : World m) : Option (Runtime m) :=
  match w.routers[0]? with
  | none => none
  | some root =>
    let errHandlers := w.errHandlers.map (fun e => (e.1, compose e.2 root.middlewares))
    match prepare env w w.routers.length 0 with
    | none => none
    | some rec =>
      let catchers := env.sort rec.catchers
      if rec.registrar.isDynamic then
        match asRadixTree env rec.registrar with
        | none => none
        | some tree => some { mutators := rec.mutators, catchers, table := .dynamic tree, errHandlers }
      else some { mutators := rec.mutators, catchers, table := .static (asMap env rec.registrar), errHandlers }

/-! ### Serving requests -/

/-- router/inbuilt/trace.go:33-42 `requestURI`. -/
def requestURI (request : Request) (buff : Bytes) : Bytes :=
  let buff := buff ++ request.Path
  if request.Query.raw.length > 0 then buff ++ [QUEST] ++ request.Query.raw else buff

/-- router/inbuilt/trace.go:44-51 `requestHeaders`. -/
def requestHeaders (hdrs : Storage) (buff : Bytes) : Bytes :=
  hdrs.pairs.foldl (fun buff p => buff ++ p.Key ++ b!": " ++ p.Value ++ b!"\r\n") buff

/-- router/inbuilt/trace.go:20-31 `renderHTTPRequest`. -/
def renderHTTPRequest (request : Request) (buff : Bytes) : Bytes :=
  let buff := buff ++ request.Method.toBytes
  let buff := buff ++ [SP]
  let buff := requestURI request buff
  let buff := buff ++ [SP]
  let buff := buff ++ trimSpace request.Proto.toBytes
  let buff := buff ++ b!"\r\n"
  let buff := requestHeaders request.Headers buff
  buff ++ b!"Content-Length: 0\r\n\r\n"

/-- router/inbuilt/trace.go:14-18 `traceResponse`. -/
def traceResponse (F : Fold) (respond : Fields) (messageBody : Bytes) : Fields :=
  ((respond.header F b!"Content-Type" [b!"message/http"]).getD respond).bytes messageBody

namespace Runtime

/-- router/inbuilt/inbuilt.go:170-174 `runMutators`. -/
def runMutators (r : Runtime m) (request : Request) : Request :=
  r.mutators.foldl (fun request mutator => mutator request) request

/-- router/inbuilt/inbuilt.go:176-183 `retrieveErrorHandler`. -/
def retrieveErrorHandler (r : Runtime m) (code : Status.Code) : Option (Handler m) :=
  match r.errHandlers.get? code with
  | none => r.errHandlers.get? AllErrors
  | some h => some h

section
variable [Monad m]

/-- router/inbuilt/inbuilt.go:136-168 `onError`: what is done, and the router afterwards. All calls of handlers are the
last thing the function does. -/
def onError' (F : Fold) (r : Runtime m) (request : Request) (err : GoErr) : m (Fields × Request) × Runtime m :=
  if request.Method = .TRACE ∧ err = .http Status.ErrMethodNotAllowed then
    let traceBuff := renderHTTPRequest request r.traceBuff
    (pure (traceResponse F Fields.new traceBuff, request), { r with traceBuff })
  else
    let caught := if err = .http Status.ErrNotFound then
        r.catchers.find? (fun c => c.Prefix.isPrefixOf request.Path) else none
    match caught with
    | some c => (c.Handler request, r)
    | none =>
      match err with
      | .http e =>
        match r.retrieveErrorHandler e.Code with
        | none => (pure ((Fields.new.code e.Code).bytes e.Message, request), r)
        | some h => (h { request with Env := { request.Env with Error := some err } }, r)
      | _ => (pure (Fields.new.code Status.InternalServerError, request), r)

/-- router/inbuilt/inbuilt.go:130-134 `OnError`. -/
def onError (F : Fold) (r : Runtime m) (request : Request) (err : GoErr) : m (Fields × Request) × Runtime m :=
  r.onError' F (r.runMutators request) err

/-- router/inbuilt/inbuilt.go:193-200 `getHandler`. -/
def getHandler (reqMethod : Method) (mm : MethodsMap m) : Option (Handler m) :=
  match mm reqMethod with
  | some h => some h
  | none => if reqMethod = .HEAD then mm .GET else none

/-- router/inbuilt/inbuilt.go:117-126: the rest of `onRequest` once the endpoint is known. -/
def dispatch (F : Fold) (r : Runtime m) (request : Request) (endpoint : Endpoint m) :
    m (Fields × Request) × Runtime m :=
  let request := { request with Env := { request.Env with AllowedMethods := endpoint.allow } }
  match getHandler request.Method endpoint.methodsMap with
  | none => r.onError' F request (.http Status.ErrMethodNotAllowed)
  | some h => (h request, r)

/-- router/inbuilt/inbuilt.go:100-127 `onRequest`; `none` is the panic of `Match` on an empty path. -/
def onRequest' (F : Fold) (r : Runtime m) (request : Request) : Option (m (Fields × Request) × Runtime m) :=
  match r.table with
  | .static routesMap =>
    match routesMap.get? request.Path with
    | none => some (r.onError' F request (.http Status.ErrNotFound))
    | some endpoint => some (r.dispatch F request endpoint)
  | .dynamic tree =>
    match tree.«match» request.Path request.Params with
    | .panic => none
    | .done none params => some (r.onError' F { request with Params := params } (.http Status.ErrNotFound))
    | .done (some endpoint) params => some (r.dispatch F { request with Params := params } endpoint)

/-- router/inbuilt/inbuilt.go:91-98 `OnRequest`. -/
def onRequest (F : Fold) (r : Runtime m) (request : Request) : Option (m (Fields × Request) × Runtime m) :=
  let request := r.runMutators request
  r.onRequest' F { request with Path := UriNormalize.normalize request.Path }

end
end Runtime
end
end Router
end Indigo
