/-
Specification of routers: what a sequence of API calls declares.
-/
import Verif.Model.Router

namespace Indigo.Spec.Router

open Indigo.Router

variable {m : Type → Type}

/-- A handler inside of middlewares: the first one is the outermost one. -/
def wrap (mws : List (Middleware m)) (h : Handler m) : Handler m :=
  match mws with
  | [] => h
  | mw :: mws => mw (wrap mws h)

/-- A router in the making: the routers it is nested in, itself last (the root is 0, others are numbered in the order
of the calls of `Group`), and its whole prefix. -/
structure Place where
  line : List Nat
  pre : Bytes

/-- All routers after the calls: a group is nested in its parent and extends its prefix. -/
def places (ops : List (Op m)) : List Place :=
  ops.foldl (fun ps op =>
    match op with
    | .group r p =>
      match ps[r]? with
      | some parent => ps ++ [⟨parent.line ++ [ps.length], parent.pre ++ p⟩]
      | none => ps
    | _ => ps) [⟨[0], []⟩]

/-- The prefix of a router. -/
def prefixOf (ops : List (Op m)) (r : Nat) : Bytes := ((places ops)[r]?.map Place.pre).getD []

/-- All middlewares added to a router itself, whenever. -/
def uses (ops : List (Op m)) (r : Nat) : List (Middleware m) :=
  ops.flatMap (fun | .use r' mws => if r' = r then mws else [] | _ => [])

/-- All middlewares around what is registered on a router: of the root first, of the router itself last. -/
def around (ops : List (Op m)) (r : Nat) : List (Middleware m) :=
  (((places ops)[r]?.map Place.line).getD []).flatMap (uses ops)

/-- A route: path, method and what is to be done. -/
abbrev Decl (m : Type → Type) := (Bytes × Method) × Handler m

/-- All routes: the prefix of the router and the path given (trailing slashes do not matter), the method, and the
handler inside of the router's and its own middlewares. -/
def declared (ops : List (Op m)) : List (Decl m) :=
  ops.flatMap (fun
    | .route r meth path h mws =>
      [((UriNormalize.normalize (prefixOf ops r ++ path), meth), wrap (around ops r ++ mws) h)]
    | _ => [])

/-- All catchers: prefix and what is to be done. -/
def catchers (ops : List (Op m)) : List (Bytes × Handler m) :=
  ops.flatMap (fun
    | .catch r pre h mws => [(GoPath.join (prefixOf ops r) pre, wrap (around ops r ++ mws) h)]
    | _ => [])

/-- The error handlers: the last registration for a code counts; they are inside of the root's middlewares. -/
def errorHandlers (defaults : List (Status.Code × Handler m)) (ops : List (Op m)) : List (Status.Code × Handler m) :=
  (defaults ++ ops.flatMap (fun
    | .routeError _ h codes => (if codes = [] then [0] else codes).map (fun c => (c, h))
    | _ => [])).map (fun e => (e.1, wrap (uses ops 0) e.2))

/-- The methods registered for a path, in the order of their numbers. -/
def methodsOf (ops : List (Op m)) (path : Bytes) : List Method :=
  [.Unknown, .GET, .HEAD, .POST, .PUT, .DELETE, .CONNECT, .OPTIONS, .TRACE, .PATCH].filter
    (fun meth => (declared ops).any (fun d => d.1 = (path, meth)))

/-- Names separated by commas. -/
def commas : List Bytes → Bytes
  | [] => []
  | [x] => x
  | x :: xs => x ++ COMMA :: commas xs

end Indigo.Spec.Router

namespace Indigo.Spec.Router

open Indigo.Router

variable {m : Type → Type}

/-- The router a call is made on. -/
def _root_.Indigo.Router.Op.on : Op m → Nat
  | .group r _ => r
  | .use r _ => r
  | .route r _ _ _ _ => r
  | .routeError r _ _ => r
  | .catch r _ _ _ => r
  | .mutator r _ => r
  | .alias r _ _ => r

/-- All calls are made on routers which exist by then. -/
def WellReferenced (ops : List (Op m)) : Prop :=
  ∀ before op after, ops = before ++ op :: after → op.on < (places before).length

/-- The paths of the catchers of a router itself. -/
def ownCatcherPaths (ops : List (Op m)) (r : Nat) : List Bytes :=
  ops.flatMap (fun
    | .catch r' pre _ _ => if r' = r then [GoPath.join (prefixOf ops r) pre] else []
    | _ => [])

/-- The last entry for a status code. -/
def lastFor {α : Type} (l : List (Status.Code × α)) (c : Status.Code) : Option α :=
  (l.reverse.find? (fun e => e.1 = c)).map (·.2)

/-- The error handlers every router has from the beginning: one for all errors, and one for 405. The first one answers errors which have a code by this code, other errors by 500 and their text, and without an error
by an empty response; the second one always by 405, with the allowed methods. -/
def defaults [Monad m] (_F : Fold) (text : GoErr → Bytes) : List (Status.Code × Handler m) :=
  [(0, fun req => pure (match req.Env.Error with
      | none => Fields.new
      | some (.http e) => { Fields.new with Code := e.Code }
      | some e => { Fields.new with Code := 500, Body := text e }, req)),
   (405, fun req => pure ({ Fields.new with Code := 405, Headers := [⟨b!"Allow", req.Env.AllowedMethods⟩] }, req))]

/-- The handler for an error with this status code: the one registered for it, otherwise the one for all errors. -/
def handlerFor [Monad m] (F : Fold) (text : GoErr → Bytes) (ops : List (Op m)) (code : Status.Code) :
    Option (Handler m) :=
  (lastFor (errorHandlers (defaults F text) ops) code).or (lastFor (errorHandlers (defaults F text) ops) 0)

/-- The groups made directly in a router, in their order. -/
def kids (ops : List (Op m)) (r : Nat) : List Nat :=
  (List.range (places ops).length).filter (fun c =>
    ((places ops)[c]?.map (fun p => decide (p.line.dropLast.getLast? = some r))).getD false)

/-- An alias: requests for exactly this path are requests for another one instead; the original one is kept. -/
def redirecting (source target : Bytes) : Mutator := fun req =>
  if req.Path = source then { req with Path := target, Env := { req.Env with AliasFrom := source } } else req

/-- The mutators added to a router itself. An alias in a group is about paths under the group's prefix. -/
def ownMutators (ops : List (Op m)) (r : Nat) : List Mutator :=
  ops.flatMap (fun
    | .mutator r' f => if r' = r then [f] else []
    | .alias r' source target => if r' = r then [redirecting (GoPath.join (prefixOf ops r) source) target] else []
    | _ => [])

/-- The mutators of a router and of the groups in it, in the order in which they run: its own first, then those of
its groups. (`fuel` limits the depth.) -/
def mutatorsIn (ops : List (Op m)) : Nat → Nat → List Mutator
  | 0, _ => []
  | fuel + 1, r => ownMutators ops r ++ (kids ops r).flatMap (mutatorsIn ops fuel)

/-- The router made by these calls; `none` if one of them, or `Initialize`, panics. -/
def make [Monad m] (F : Fold) (text : GoErr → Bytes) (env : Env m) (ops : List (Op m)) : Option (Runtime m) :=
  (run (newWorld F text) ops).bind (initRouter env)

/-- The request as changed by the mutators. -/
def mutated (ops : List (Op m)) (req : Request) : Request :=
  (mutatorsIn ops (places ops).length 0).foldl (fun req f => f req) req

/-- The request as it is routed: changed by the mutators, and without trailing slashes in its path (see C43). -/
def arriving (ops : List (Op m)) (req : Request) : Request :=
  { mutated ops req with Path := UriNormalize.normalize (mutated ops req).Path }

/-- The request with the methods allowed for its path. -/
def allowing (req : Request) (methods : List Method) : Request :=
  { req with Env := { req.Env with AllowedMethods := commas (methods.map Method.toBytes) } }

/-- The request with an error. -/
def failing (req : Request) (err : GoErr) : Request := { req with Env := { req.Env with Error := some err } }

/-- No path of a route contains variables. -/
def Static (ops : List (Op m)) : Prop := ∀ d ∈ declared ops, (123 : Byte) ∉ d.1.1

/-- A section of a clean path: not empty, neither `.` nor `..`, without slashes. -/
def CleanPart (s : Bytes) : Prop := s ≠ [] ∧ s ≠ b!"." ∧ s ≠ b!".." ∧ SLASH ∉ s

/-- The path with these sections. -/
def pathOf (ss : List Bytes) : Bytes := ss.flatMap (fun s => SLASH :: s)

/-- What a TRACE request is answered with: the request line, the headers, and a Content-Length. -/
def echo (req : Request) : Bytes :=
  req.Method.toBytes ++ b!" " ++ req.Path ++ (if req.Query.raw = [] then [] else b!"?" ++ req.Query.raw) ++ b!" " ++
    trimSpace req.Proto.toBytes ++ b!"\r\n" ++
    req.Headers.pairs.flatMap (fun p => p.Key ++ b!": " ++ p.Value ++ b!"\r\n") ++ b!"Content-Length: 0\r\n\r\n"

/-- TRACE requests for a path which is registered, but not for TRACE. -/
def traced (ops : List (Op m)) (req : Request) : Bool :=
  (arriving ops req).Method = .TRACE ∧ methodsOf ops (arriving ops req).Path ≠ [] ∧
    Method.TRACE ∉ methodsOf ops (arriving ops req).Path

/-- The router after serving these requests; `none` if one of them panics. -/
def serving [Monad m] (F : Fold) (rt : Runtime m) : List Request → Option (Runtime m)
  | [] => some rt
  | req :: reqs =>
    match rt.onRequest F req with
    | none => none
    | some (_, rt) => serving F rt reqs

end Indigo.Spec.Router
