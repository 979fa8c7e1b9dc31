/-
Model of many connections served at the same time by one router.
-/
import Verif.Model.Serve

namespace Indigo.Serve

variable {σ ρ ρ' : Type}

/-- A connection with another state of the router. -/
def Conn.on (c : Conn σ ρ) (x : ρ') : Conn σ ρ' := { c with router := x }

/-- The server with another router. -/
def Setup.through (E : Setup σ ρ) (r : RouterImpl Act ρ') : Setup σ ρ' := { E with router := r }

/-- The router of the server while other goroutines use it, too: before each call, they may have changed its state. The changes are those
of the list, one after another; nothing is changed after its end. (In between two calls, nothing a connection does depends on the router, and changes
during a call are those before it, for the parts of the state which the call does not look at.) -/
def interfered (E : Setup σ ρ) : Setup σ (ρ × List (ρ → ρ)) :=
  E.through
    { onRequest := fun s req =>
        let (act, x) := E.router.onRequest ((s.2.head?.getD id) s.1) req
        (act, (x, s.2.tail))
      onError := fun s req e =>
        let (act, x) := E.router.onError ((s.2.head?.getD id) s.1) req e
        (act, (x, s.2.tail)) }

/-- A connection being served or done. -/
structure Served (σ ρ : Type) where
  conn : Conn σ ρ
  ended : Option Ended := none

/-- indi.go:118, 143-145, internal/tcp/server.go:45: the router of an application is one object, shared by the goroutines of
all connections. -/
structure Crowd (σ ρ : Type) where
  router : ρ
  conns : List (Served σ ρ)

/-- A panic in the goroutine of one connection ends the whole process. -/
def Crowd.crashed (s : Crowd σ ρ) : Prop := ∃ c ∈ s.conns, c.ended = some .panicked

instance (s : Crowd σ ρ) : Decidable s.crashed := by unfold Crowd.crashed; infer_instance

/-- The goroutine of connection `i` does one iteration of its loop (internal/protocol/http1/suit.go:61-125), with the
router as it is. The iterations of different connections are taken to be atomic; inside of an iteration the router
changes nothing but its buffer for TRACE (router/inbuilt/inbuilt.go:137-140). -/
def Crowd.tick (E : Setup σ ρ) (s : Crowd σ ρ) (i : Nat) : Crowd σ ρ :=
  if s.crashed then s
  else
    match s.conns[i]? with
    | none => s
    | some c =>
      match c.ended with
      | some _ => s
      | none =>
        let (conn, ended) := step E (c.conn.on s.router)
        { router := conn.router, conns := s.conns.set i { conn, ended } }

/-- Any schedule. -/
def Crowd.run (E : Setup σ ρ) (s : Crowd σ ρ) (schedule : List Nat) : Crowd σ ρ := schedule.foldl (Crowd.tick E) s

/-- All connections are new. -/
def Crowd.new (router : ρ) (conns : List (Conn σ ρ)) : Crowd σ ρ := { router, conns := conns.map (fun conn => { conn }) }

/-- A connection alone: `n` iterations. -/
def alone (E : Setup σ ρ) (c : Served σ ρ) : Nat → Served σ ρ
  | 0 => c
  | n + 1 =>
    let c := alone E c n
    match c.ended with
    | some _ => c
    | none => let (conn, ended) := step E c.conn; { conn, ended }

end Indigo.Serve
