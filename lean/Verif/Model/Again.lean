/-
Model of the effects of `Initialize` (router/inbuilt) on the router it is called on. `Router.initRouter` only has its result, which is
all there is to say if it is called once. It is called again when one router is given to several virtual hosts
(router/virtual/virtual.go:52-70), or served again.
-/
import Verif.Model.Virtual

namespace Indigo.Router.Again
open Indigo.Router
variable {m : Type → Type}

/-- router/inbuilt/groups.go:30-35: the router `rr` with what its child `rc` has; `reg` are the merged routes. -/
def adopt (rr rc : Rec m) (reg : Registrar m) : Rec m :=
  { rr with registrar := reg, mutators := rr.mutators ++ rc.mutators, catchers := rr.catchers ++ rc.catchers }

/-- router/inbuilt/groups.go:25-36: the loop of `prepare` of the router `r`, with its effects; `child` prepares a child. -/
def childLoop (env : Env m) (child : Nat → List (Rec m) → Option (List (Rec m))) (r : Nat) : List Nat → List (Rec m) →
    Option (List (Rec m))
  | [], rs => some rs
  | c :: cs, rs =>
    match child c rs with
    | none => none
    | some rs =>
      match rs[r]?, rs[c]? with
      | some rr, some rc =>
        match rr.registrar.merge env rc.registrar with
        | none => none
        | some reg =>
          childLoop env child r cs (rs.set r (adopt rr rc reg))
      | _, _ => none

/-- router/inbuilt/groups.go:38-39, middlewares.go:20-24 `applyMiddlewares`, catchers.go:38-42 `applyCatchersMiddlewares`. -/
def finish (rec : Rec m) : Rec m :=
  { rec with
    registrar := rec.registrar.apply (fun h => compose h rec.middlewares)
    catchers := rec.catchers.map (fun c => { c with Handler := compose c.Handler rec.middlewares }) }

/-- router/inbuilt/groups.go:24-42 `prepare` of the router `r`: all routers afterwards. `none` is an error. Fuel as in `Router.prepare`. -/
def prepare (env : Env m) : Nat → Nat → List (Rec m) → Option (List (Rec m))
  | 0, _, _ => none
  | fuel + 1, r, rs =>
    match rs[r]? with
    | none => none
    | some rec =>
      match childLoop env (prepare env fuel) r rec.children rs with
      | none => none
      | some rs => some (rs.modify r finish)

/-- A router (the root and its groups) while it is initialized, perhaps several times. The slice `catchers` of the root shares its array
with the routers which have been returned before, until `append` allocates another one: `cap` is its capacity, `old` are the arrays
which have been left behind, oldest first. The map of the error handlers is always the same one. -/
structure Live (m : Type → Type) where
  world : World m
  old : List (List (Catcher m)) := []
  cap : Nat

/-- router/inbuilt/inbuilt.go:49-57 `runtimeRouter`, as returned by `Initialize`: with the number of the array and the length of
`catchers`; the error handlers are those of the router it comes from. (`traceBuff` is empty.) -/
structure Handle (m : Type → Type) where
  mutators : List Mutator
  table : Table m
  array : Nat
  len : Nat

/-- What a `runtimeRouter` is at the moment. -/
def Handle.runtime (h : Handle m) (l : Live m) : Runtime m :=
  { mutators := h.mutators, table := h.table, errHandlers := l.world.errHandlers
    catchers := match l.old[h.array]? with
      | some a => a.take h.len
      | none => ((l.world.routers[0]?.map Rec.catchers).getD []).take h.len }

/-- router/inbuilt/inbuilt.go:74-78. -/
def tableOf (env : Env m) (r : Registrar m) : Option (Table m) :=
  if r.isDynamic then (asRadixTree env r).map .dynamic else some (.static (asMap env r))

/-- router/inbuilt/inbuilt.go:59-88 `Initialize` (with 185-189 `applyErrorHandlersMiddlewares`); `none` is a panic. `grow` is Go's
policy for the capacity of an array which `append` allocates. -/
def initialized (grow : Nat → Nat → Nat) (env : Env m) (l : Live m) : Option (Handle m × Live m) :=
  match l.world.routers[0]? with
  | none => none
  | some root =>
    let errHandlers := l.world.errHandlers.map (fun e => (e.1, compose e.2 root.middlewares))
    match prepare env l.world.routers.length 0 l.world.routers with
    | none => none
    | some rs =>
      match rs[0]? with
      | none => none
      | some rec =>
        let moved := rec.catchers.length > l.cap
        let old := if moved then l.old ++ [root.catchers] else l.old
        let cap := if moved then grow l.cap rec.catchers.length else l.cap
        match tableOf env rec.registrar with
        | none => none
        | some table =>
          some ({ mutators := rec.mutators, table, array := old.length, len := rec.catchers.length },
            { world := { routers := rs.set 0 { rec with catchers := env.sort rec.catchers }, errHandlers }, old, cap })

/-- `Initialize`, so many times: what it returns, and the router afterwards. -/
def times (grow : Nat → Nat → Nat) (env : Env m) (l : Live m) : Nat → Option (List (Handle m) × Live m)
  | 0 => some ([], l)
  | n + 1 =>
    match times grow env l n with
    | none => none
    | some (hs, l) =>
      match initialized grow env l with
      | none => none
      | some (h, l) => some (hs ++ [h], l)

/-- router/virtual/virtual.go:30-41, 52-70: the virtual router `New().Host(names[0], r).Host(names[1], r)...` after `Initialize`, without
names which stand for the default router (see `Virtual.step`). -/
def hosts (grow : Nat → Nat → Nat) (env : Env m) (l : Live m) (names : List Bytes) : Option (Virtual.Runtime (Runtime m)) :=
  (times grow env l names.length).map fun (hs, l) =>
    Virtual.initRouter (·.runtime l) (Virtual.build (List.zipWith .host names hs))

end Indigo.Router.Again
