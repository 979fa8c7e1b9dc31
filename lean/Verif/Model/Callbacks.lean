/-
Model of indi.go: the code of the user which the application runs (hooks and handlers), as far as it calls `Stop` and `GracefulStop` of the same application.
-/
import Verif.Model.App

namespace Indigo.App

/-- indi.go:183-193: the call with number `k` is still sending on the channel, which is not buffered (indi.go:31). -/
def State.waiting (s : State) (k : Nat) : Bool :=
  match s.calls[k]? with
  | some c => !c.returned
  | none => false

/-- indi.go:151-177 `run` with what its hooks and the handlers of connections have called. -/
structure Busy where
  s : State
  /-- the last call of `Stop` or `GracefulStop` by the hook which is being run (OnStart, OnStop) -/
  hook : Option Nat := none
  /-- calls by handlers: the handler of connection `j` of server `i` has made the call `k` -/
  handlers : List (Nat × Nat × Nat) := []
  deriving DecidableEq, Repr

/-- What can happen: a step as before, or the code of the user calls `GracefulStop` or `Stop`. Simplification: OnBind, which is called before `run`, is left out. -/
inductive Doing
  | step (l : Label)
  /-- the hook which is being run calls it -/
  | hook (graceful : Bool)
  /-- the handler of connection `j` of server `i` calls it -/
  | handler (i j : Nat) (graceful : Bool)
  deriving DecidableEq, Repr

/-- indi.go:166, 174, 237-241 `callIfNotNil`: `run` is in a hook. -/
def MainPc.inHook : MainPc → Bool
  | .onStart => true
  | .onStop => true
  | _ => false

/-- The hook waits for its call to return. -/
def Busy.hookWaits (b : Busy) : Bool := b.s.main.inHook && b.hook.any b.s.waiting

/-- The handler of connection `j` of server `i` waits for its call to return. -/
def Busy.handlerWaits (b : Busy) (i j : Nat) : Bool := b.handlers.any (fun x => x.1 == i && x.2.1 == j && b.s.waiting x.2.2)

/-- indi.go:166, 174: `run` goes on when the hook has returned; internal/tcp/server.go:72-76: a connection is closed when its handler has returned. Neither does as long as it waits in `Stop` or `GracefulStop`. -/
def Busy.step (b : Busy) : Doing → Option Busy
  | .step l =>
    match l with
    | .main => if b.hookWaits then none else (b.s.step .main).map (fun s => { b with s, hook := none })
    | .conn i j => if b.handlerWaits i j then none else (b.s.step (.conn i j)).map (fun s => { b with s })
    | l => (b.s.step l).map (fun s => { b with s })
  | .hook g =>
    if b.s.main.inHook && !b.hookWaits then (b.s.step (.call g)).map (fun s => { b with s, hook := some b.s.calls.length }) else none
  | .handler i j g =>
    if (b.s.servers[i]?.bind (fun srv => srv.conns[j]?)) = some .serving ∧ b.handlerWaits i j = false then
      (b.s.step (.call g)).map (fun s => { b with s, handlers := (i, j, b.s.calls.length) :: b.handlers })
    else none

/-- One after another. -/
def Busy.run (b : Busy) : List Doing → Option Busy
  | [] => some b
  | d :: ds =>
    match b.step d with
    | some b => b.run ds
    | none => none

end Indigo.App
