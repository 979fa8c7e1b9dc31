/-
Specification: what a client is told about a malformed head.
-/
import Verif.Spec.Replies

namespace Indigo.Spec
open Serve (Setup)
variable {σ ρ : Type}

/-- A router which answers to the error `e` with a response which says itself how long it is. It does not panic then, does not hijack the connection, and leaves
method and protocol of the request object alone. -/
def Excusing (E : Setup σ ρ) (defaults : List (Bytes × Bytes)) (e : Status.HTTPError) (st : ρ) : Prop :=
  ∀ history req (world : Act.World σ), world.hijacked = false →
    ∃ f req' left, (E.router.onError (routerAfter E st history) req (.http e)).1.run E.P E.maxAlloc world = (some (f, req'), left) ∧
      left.hijacked = false ∧ Readable defaults req.Proto f ∧ req'.Method = req.Method ∧ req'.Proto = req.Proto

/-- The message `m` is the reply to the malformed head at the beginning of `bad`, with the method `meth` and the fault `e`, sent after the requests `before`: the router was told about `e`, after having been
called with those, and its answer, the response `f`, is what `m` says. -/
def Refused (E : Setup σ ρ) (st : ρ) (defaults : List (Bytes × Bytes)) (before : List Sending) (L : Limits) (maxTokens : Nat) (remote : Bytes)
    (post : List (Bytes × Option GoErr)) (bad : Bytes) (meth : Method) (e : Status.HTTPError) (m : Msg) : Prop :=
  ∃ history seen f req left, HeardBefore E maxTokens remote post before history ∧ AtFault E.F L maxTokens bad remote e seen ∧
    Told E (routerAfter E st history) seen (.http e) (some (f, req), left) ∧
    versionName seen.Proto = some m.version ∧ m.code = f.Code ∧
    m.rest = (if meth = .HEAD then [] else sentBody f) ∧
    SaysFields defaults f m.fields

end Indigo.Spec
