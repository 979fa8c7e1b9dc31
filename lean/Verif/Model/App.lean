/-
Model of indi.go (the application object, binding and running) and internal/tcp/server.go.

`bind` is modelled sequentially, with the variables closures refer to. Running is modelled as a machine which is given, step
by step, which goroutine goes on and what the environment does; all interleavings are all lists of labels.
-/
import Verif.Model.Request
import Verif.Model.Address
import Verif.Model.Middleware

namespace Indigo.App

/-! ### Listeners and binding -/

/-- indi.go:214-215 `listenerFactory`: the ones the package makes, and custom ones told apart by a number. -/
inductive Factory
  | net
  | tls (cert key : Bytes)
  | autoTLS (domains : List Bytes)
  | custom (n : Nat)
  deriving DecidableEq, Repr

/-- indi.go:216 `listenerHandler`: `newHTTPHandler(enc)` (indi.go:195-199), or a custom one. -/
inductive Handler
  | http (enc : EncToken)
  | custom (n : Nat)
  deriving DecidableEq, Repr

/-- indi.go:219-222 `Listener`; `none` is nil. -/
structure Listener where
  Listen : Option Factory := none
  Handler : Option App.Handler := none
  deriving DecidableEq, Repr

/-- indi.go:224-227 `source`. `Listen` is never nil. -/
structure Source where
  Addr : Bytes
  Listen : Factory
  Handler : Option App.Handler
  deriving DecidableEq, Repr

/-- indi.go:20-25 `App`: only the sources matter here (config: see Model/Config; hooks are always set, and called by
logging; errCh is part of the machine below). -/
structure App where
  sources : List Source := []
  deriving DecidableEq, Repr

/-- http/encryption/encryption.go `TLS`. -/
def TLS : EncToken := 1

/-- indi.go:65-77 `Listen`, with 229-235 `optional`. -/
def App.listen (a : App) (addr : Bytes) (optListener : List Listener := []) : App :=
  let listener := optListener.headD {}
  { a with sources := a.sources ++ [⟨Address.normalize addr, listener.Listen.getD .net, listener.Handler⟩] }

/-- indi.go:28-35 `New`. -/
def new (addr : Bytes) : App := ({} : App).listen addr

/-- indi.go:79-84 `HTTPS`. -/
def App.https (a : App) (addr cert key : Bytes) : App :=
  a.listen addr [{ Listen := some (.tls cert key), Handler := some (.http TLS) }]

/-- indi.go:88-109 `AutoHTTPS`. The parameter `selfSigned` is the result of `generateSelfSignedCert` (https.go:88-152; `Model/Certs.lean` has it in steps). -/
def App.autoHTTPS (selfSigned : Except GoErr (Bytes × Bytes)) (a : App) (addr : Bytes)
    (domains : List Bytes := []) : App :=
  let addr := Address.normalize addr
  if Address.isLocalhost addr || Address.isIP addr then
    match selfSigned with
    | .error _ => a
    | .ok (cert, key) => a.https addr cert key
  else a.listen addr [{ Listen := some (.autoTLS domains), Handler := some (.http TLS) }]

/-- internal/tcp/server.go:16-21 `Server`, as far as binding is concerned: the socket, identified by the index of its
source, and the closure `onConn` (indi.go:143-145), which refers to a variable. -/
structure Bound where
  sock : Nat
  onConn : Nat
  deriving DecidableEq, Repr

/-- The state of `bind`: the variables of type `source` made so far, servers, sockets open and calls of OnBind. -/
structure Binding where
  vars : List Source
  servers : List Bound := []
  sockets : List Nat := []
  onBind : List Bytes := []
  deriving DecidableEq, Repr

/-- indi.go:129-146: one round of the loop. `fail` tells whether listening fails. The language version (go.mod:3, `go 1.18`)
makes `src` one variable for all rounds; it is the one with number 0 here. -/
def bindOne (fail : Nat → Source → Option GoErr) (i : Nat) (s : Source) (b : Binding) : Except GoErr Binding × Binding :=
  let b := { b with vars := b.vars.set 0 s }
  match fail i s with
  | some e => (.error e, b)
  | none =>
    let b := { b with sockets := b.sockets ++ [i] }
    let b := if s.Handler = none then { b with vars := b.vars.set 0 { s with Handler := some (.http Middleware.Plain) } } else b
    let b := { b with onBind := b.onBind ++ [s.Addr], servers := b.servers ++ [⟨i, 0⟩] }
    (.ok b, b)

/-- indi.go:129-146: the loop. The second component is the state in which it ends, also by an error. -/
def bindLoop (fail : Nat → Source → Option GoErr) : Nat → List Source → Binding → Except GoErr Binding × Binding
  | _, [], b => (.ok b, b)
  | i, s :: ss, b =>
    match bindOne fail i s b with
    | (.error e, b) => (.error e, b)
    | (.ok b, _) => bindLoop fail (i + 1) ss b

/-- indi.go:126-149 `bind`. -/
def App.bind (fail : Nat → Source → Option GoErr) (a : App) : Except GoErr Binding × Binding :=
  bindLoop fail 0 a.sources { vars := [⟨[], .net, none⟩] }

/-- indi.go:143-145: the handler called for a connection accepted by a server, after binding. -/
def Binding.handlerFor (b : Binding) (s : Bound) : Option App.Handler := (b.vars[s.onConn]?).bind Source.Handler

/-! ### Running -/

/-- internal/tcp/server.go:33-49 `Start` and indi.go:155-163: where the goroutine of a server is. -/
inductive LoopPc
  | unstarted
  /-- server.go:38, the condition of the loop -/
  | check
  /-- server.go:39, in `Accept` -/
  | accept
  /-- server.go:44, `Accept` has returned a connection -/
  | got
  /-- indi.go:158, `Start` has returned -/
  | returned (e : Option GoErr)
  /-- indi.go:162, sending the error -/
  | send (e : Option GoErr)
  | over
  deriving DecidableEq, Repr

/-- internal/tcp/server.go:72-76 `connHandler`: where the goroutine of a connection is. -/
inductive ConnPc
  /-- in `onConn` -/
  | serving
  /-- before `Close` -/
  | served
  /-- before `Done` -/
  | closed
  | gone
  deriving DecidableEq, Repr

/-- internal/tcp/server.go:16-21 `Server` with its listener and goroutines. -/
structure Srv where
  /-- the listener is a `Deadliner` (server.go:12-14) -/
  deadliner : Bool
  pc : LoopPc := .unstarted
  shutdown : Bool := false
  /-- the listener has been closed -/
  closed : Bool := false
  /-- the deadline of the listener has been set to the past -/
  expired : Bool := false
  wg : Nat := 0
  conns : List ConnPc := []
  deriving DecidableEq, Repr

/-- indi.go:151-177 `run`: where it is. The numbers are positions in the list of servers. -/
inductive MainPc
  /-- 154-164 -/
  | start (k : Nat)
  /-- 166 -/
  | onStart
  /-- 167 -/
  | recv
  /-- 170, server.go:87-89 -/
  | pause (k : Nat)
  /-- 170, server.go:91 -/
  | pauseWait (k : Nat)
  /-- 173, server.go:79-81 -/
  | stop (k : Nat)
  /-- 173, server.go:83 -/
  | stopWait (k : Nat)
  /-- 174 -/
  | onStop
  | done
  deriving DecidableEq, Repr

/-- A goroutine sending on the channel of the application: a call of `Stop` or `GracefulStop` (indi.go:183-193), or one
which an earlier `run` has left behind. -/
structure Call where
  msg : Option GoErr
  returned : Bool := false
  deriving DecidableEq, Repr

structure State where
  servers : List Srv
  failSilently : Bool := false
  main : MainPc := .start 0
  calls : List Call := []
  result : Option (Option GoErr) := none
  onStarts : Nat := 0
  onStops : Nat := 0
  deriving DecidableEq, Repr

/-- What `Accept` returns. -/
inductive Accepted
  | conn
  | error (e : GoErr)
  deriving DecidableEq, Repr

/-- Who goes on. -/
inductive Label
  /-- `run`, at anything but receiving -/
  | main
  /-- `run` receives from the i-th call -/
  | recvCall (i : Nat)
  /-- `run` receives from the goroutine of the i-th server -/
  | recvLoop (i : Nat)
  /-- the goroutine of the i-th server; `a` is what `Accept` returns, if it is there -/
  | loop (i : Nat) (a : Accepted)
  /-- the goroutine of the j-th connection of the i-th server -/
  | conn (i j : Nat)
  /-- the application calls `GracefulStop` or `Stop` -/
  | call (graceful : Bool)
  deriving DecidableEq, Repr

/-- A step of the goroutine of a server; `silent` is the content of `failSilently`, and the second component the new one.
`Accept` fails if the listener has been closed or its deadline has passed; otherwise it may return a connection or any error.
`Add` and the start of the goroutine (server.go:44-45) are one step. -/
def Srv.loop (s : Srv) (silent : Bool) (a : Accepted) : Option (Srv × Bool) :=
  match s.pc with
  | .unstarted => none
  | .check => some (if s.shutdown then { s with pc := .returned none } else { s with pc := .accept }, silent)
  | .accept =>
    match a with
    | .conn => if s.closed || s.expired then none else some ({ s with pc := .got }, silent)
    | .error e => some ({ s with pc := .returned (some e) }, silent)
  | .got => some ({ s with wg := s.wg + 1, conns := s.conns ++ [.serving], pc := .check }, silent)
  | .returned e => some ({ s with pc := if silent then .over else .send e }, true)
  | .send _ => none
  | .over => none

/-- A step of the goroutine of a connection. -/
def Srv.conn (s : Srv) (j : Nat) : Option Srv :=
  match s.conns[j]? with
  | some .serving => some { s with conns := s.conns.set j .served }
  | some .served => some { s with conns := s.conns.set j .closed }
  | some .closed => some { s with conns := s.conns.set j .gone, wg := s.wg - 1 }
  | _ => none

/-- internal/tcp/server.go:58-65 `Pause`. -/
def Srv.pause (s : Srv) : Srv := { s with shutdown := true, expired := s.expired || s.deadliner }

/-- internal/tcp/server.go:53-55 `Stop`. -/
def Srv.stop (s : Srv) : Srv := { s with closed := true }

/-- indi.go:167-171, after the message `m` has been received. -/
def State.received (s : State) (m : Option GoErr) : State :=
  { s with result := some m, main := if m = some (.http Status.ErrGracefulShutdown) then .pause 0 else .stop 0 }

/-- A step of `run`, except receiving. `Wait` (server.go:68-70) waits until the counter is 0. -/
def State.mainStep (s : State) : Option State :=
  match s.main with
  | .start k =>
    match s.servers[k]? with
    | some srv => some { s with servers := s.servers.set k { srv with pc := .check }, main := .start (k + 1) }
    | none => some { s with main := .onStart }
  | .onStart => some { s with onStarts := s.onStarts + 1, main := .recv }
  | .recv => none
  | .pause k =>
    match s.servers[k]? with
    | some srv => some { s with servers := s.servers.set k srv.pause, main := .pause (k + 1) }
    | none => some { s with main := .pauseWait 0 }
  | .pauseWait k =>
    match s.servers[k]? with
    | some srv => if srv.wg = 0 then some { s with main := .pauseWait (k + 1) } else none
    | none => some { s with main := .stop 0 }
  | .stop k =>
    match s.servers[k]? with
    | some srv => some { s with servers := s.servers.set k srv.stop, main := .stop (k + 1) }
    | none => some { s with main := .stopWait 0 }
  | .stopWait k =>
    match s.servers[k]? with
    | some srv => if srv.wg = 0 then some { s with main := .stopWait (k + 1) } else none
    | none => some { s with main := .onStop }
  | .onStop => some { s with onStops := s.onStops + 1, main := .done }
  | .done => none

/-- One step; `none` if the goroutine named cannot go on. -/
def State.step (s : State) : Label → Option State
  | .main => s.mainStep
  | .recvCall i =>
    if s.main = .recv then
      match s.calls[i]? with
      | some c => if c.returned then none else some ({ s with calls := s.calls.set i { c with returned := true } }.received c.msg)
      | none => none
    else none
  | .recvLoop i =>
    if s.main = .recv then
      match s.servers[i]? with
      | some srv =>
        match srv.pc with
        | .send e => some ({ s with servers := s.servers.set i { srv with pc := .over } }.received e)
        | _ => none
      | none => none
    else none
  | .loop i a =>
    match s.servers[i]? with
    | some srv =>
      match srv.loop s.failSilently a with
      | some (srv, silent) => some { s with servers := s.servers.set i srv, failSilently := silent }
      | none => none
    | none => none
  | .conn i j =>
    match s.servers[i]? with
    | some srv =>
      match srv.conn j with
      | some srv => some { s with servers := s.servers.set i srv }
      | none => none
    | none => none
  | .call graceful =>
    some { s with calls := s.calls ++ [⟨some (.http (if graceful then Status.ErrGracefulShutdown else Status.ErrShutdown)), false⟩] }

/-- The steps with the given labels, one after another. -/
def State.run (s : State) : List Label → Option State
  | [] => some s
  | l :: ls =>
    match s.step l with
    | some s => s.run ls
    | none => none

/-- indi.go:151: `run` is called with servers whose listeners are deadliners or not, while `calls` are being sent. -/
def starting (deadliners : List Bool) (calls : List Call := []) : State :=
  { servers := deadliners.map (fun d => { deadliner := d }), calls }

end Indigo.App
