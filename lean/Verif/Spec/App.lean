/-
Specification for the properties of the application object and its servers.
-/
import Verif.Model.App

namespace Indigo.App

/-- The handler configured for a listener: the given one, or HTTP without encryption. -/
def Source.configured (s : Source) : App.Handler := s.Handler.getD (.http Middleware.Plain)

/-- The calls which add listeners: `Listen(addr, listeners...)` and `HTTPS(addr, cert, key)`. -/
inductive Setting
  | listen (addr : Bytes) (listeners : List Listener)
  | https (addr cert key : Bytes)

/-- The application after calls. -/
def called (a : App) : List Setting → App
  | [] => a
  | .listen addr ls :: rest => called (a.listen addr ls) rest
  | .https addr cert key :: rest => called (a.https addr cert key) rest

/-- The address named in the call, how it is to be listened on, and who is to handle the connections: of the listeners passed
to `Listen` the first one counts, with plain TCP and plain HTTP in place of what it leaves out. -/
def Setting.asks : Setting → Bytes × Factory × App.Handler
  | .listen addr [] => (addr, .net, .http Middleware.Plain)
  | .listen addr (l :: _) => (addr, (match l.Listen with | some f => f | none => .net),
      match l.Handler with | some h => h | none => .http Middleware.Plain)
  | .https addr cert key => (addr, .tls cert key, .http TLS)

/-- Connections of a server which are being served, or at least have not been closed and signed off. -/
def Srv.present (s : Srv) : Nat := (s.conns.filter (· ≠ .gone)).length

/-- The accept loop holds a connection which it has not signed on yet. -/
def Srv.holds (s : Srv) : Bool := s.pc == .got

/-- `run` has called OnStop. -/
def State.stopped (s : State) : Bool := s.onStops ≠ 0

/-- All states an application with the given listeners can get into, from the call of `run`. -/
def Reachable (deadliners : List Bool) (s : State) : Prop := ∃ labels, (starting deadliners).run labels = some s

/-- The label is a step of `run` itself. -/
def Label.isMain : Label → Bool
  | .main => true
  | .recvCall _ => true
  | .recvLoop _ => true
  | _ => false

end Indigo.App
