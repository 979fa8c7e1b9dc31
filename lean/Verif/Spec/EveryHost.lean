/-
Specification: what a client reads from several programs behind a virtual router, whatever it sends.
-/
import Verif.Spec.EveryProgram
import Verif.Spec.Hosts

namespace Indigo.Spec
open Indigo.Router (Handler Op)
open Indigo.Spec.Router Indigo.Spec.Virtual
open Indigo.Serve (Setup)
variable {σ ρ : Type}

/-- A request without the buffers of the storage of its headers, which are not observable. -/
def bared (r : Request) : Request := { r with Headers := { pairs := r.Headers.pairs } }

/-- The requests of a history which are for the same host as this one. -/
def neighbours (vops : List (Virtual.Op Tenant)) (history : List Request) (seen : Request) : List Request :=
  history.filter (fun r => target vops r = target vops seen)

/-- The message `m` is a refusal: this code, the version `v`, and no body. -/
def RefusalOf (defaults : List (Bytes × Bytes)) (code : Status.Code) (v : Proto) (m : Msg) : Prop :=
  versionName v = some m.version ∧ m.code = code ∧ m.rest = [] ∧ SaysFields defaults (Fields.new.code code) m.fields

/-- The message `m` is what is answered to the request which reached the virtual router as `seen`, after those of `history`, and has these values of `Host`: what the program which is to answer it answers (it has only seen those requests of the history which
are for the same host), or a refusal. -/
def MetAt (E : Setup σ ρ) (text : GoErr → Bytes) (vops : List (Virtual.Op Tenant)) (look : Tenant → Lookup) (defaults : List (Bytes × Bytes)) (history : List Request) (hosts : List Bytes)
    (seen : Request) (meth : Method) (m : Msg) : Prop :=
  match answerer vops hosts with
  | .tenant t => ∃ past seen', bared seen' = bared seen ∧ past.map bared = (neighbours vops history seen).map bared ∧ MetWith E text t.ops (look t) defaults past seen' meth m
  | .refusal code => RefusalOf defaults code (answeredIn seen) m

/-- Letters, digits, `-`, `.` and `:` only in the names of the headers and in the values of `Host`. -/
def PlainSeen (r : Request) : Prop :=
  (∀ p ∈ r.Headers.pairs, ∀ c ∈ p.Key, HostChar c) ∧ ∀ v ∈ hostsOf r, ∀ c ∈ v, HostChar c

/-- The message `m` is what is answered to a refused head, of which `seen` is what was read before the fault `e`: the error handler of the program which the `Host` read so far is for answers, or the virtual router refuses. -/
def ExcusedAt (E : Setup σ ρ) (text : GoErr → Bytes) (vops : List (Virtual.Op Tenant)) (defaults : List (Bytes × Bytes)) (e : Status.HTTPError) (seen : Request) (meth : Method) (m : Msg) : Prop :=
  match answerer vops (hostsOf seen) with
  | .tenant t => ∃ h seen', bared seen' = bared seen ∧ handlerFor E.F text t.ops e.Code = some h ∧
      AnsweredBy E defaults h (failing (mutated t.ops seen') (.http e)) meth seen.Proto m
  | .refusal code => RefusalOf defaults code seen.Proto m

/-- What is written because of what the client sends after its well-formed requests `before`: as `Kind.Gets`, for the program which the `Host` is for. -/
def Kind.GetsAt (E : Setup σ ρ) (text : GoErr → Bytes) (vops : List (Virtual.Op Tenant)) (look : Tenant → Lookup) (defaults : List (Bytes × Bytes)) (before : List Sending) (lim : Limits)
    (maxTokens : Nat) (remote tail : Bytes) (post : List (Bytes × Option GoErr)) (written : Bytes) : Kind → Prop
  | unfinished => written = []
  | crashing => written = []
  | faulty e => e ≠ Status.ErrUnsupportedProtocol → ∀ meth, NamesMethod tail meth →
      ∃ m seen, readAnswers [meth] written = some [(none, m)] ∧ AtFault E.F lim maxTokens tail remote e seen ∧
        (PlainSeen seen → ExcusedAt E text vops defaults e seen meth m)
  | tooLong => ∃ e ∈ longErrors, e ≠ Status.ErrTooLongRequestLine → ∀ meth, NamesMethod tail meth →
      ∃ m seen, readAnswers [meth] written = some [(none, m)] ∧ AtFault E.F lim maxTokens tail remote e seen ∧
        (PlainSeen seen → ExcusedAt E text vops defaults e seen meth m)
  | last h path given =>
      ∃ a history env seen world, readAnswers [h.method] written = some [a] ∧ HeardBefore E maxTokens remote post before history ∧
        Announced E maxTokens remote post env h path given seen world ∧ Interim defaults history seen a.1 ∧
        MetAt E text vops look defaults history (hostsSent h) seen h.method a.2
  | garbled h path given =>
      ∃ a rest history env seen world, readAnswer h.method written = some (a, rest) ∧ HeardBefore E maxTokens remote post before history ∧
        Announced E maxTokens remote post env h path given seen world ∧ Interim defaults history seen a.1 ∧
        MetAt E text vops look defaults history (hostsSent h) seen h.method a.2
  | outside => True

end Indigo.Spec
