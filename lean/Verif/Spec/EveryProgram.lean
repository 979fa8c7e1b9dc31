/-
Specification: what a client reads from a program made with the built-in router, whatever it sends.
-/
import Verif.Spec.Every
import Verif.Spec.Program

namespace Indigo.Spec
open Indigo.Router (Handler Op)
open Indigo.Spec.Router
open Indigo.Serve (Setup)
variable {σ ρ : Type}

/-- The message `m` says what the handler `h`, called with `r`, answers to a request with the method `meth`, and its version is `v`. -/
def AnsweredBy (E : Setup σ ρ) (defaults : List (Bytes × Bytes)) (h : Handler Act) (r : Request) (meth : Method) (v : Proto) (m : Msg) : Prop :=
  ∃ world f r' left, (h r).run E.P E.maxAlloc world = (some (f, r'), left) ∧ versionName v = some m.version ∧ m.code = f.Code ∧
    m.rest = (if meth = .HEAD then [] else sentBody f) ∧ SaysFields defaults f m.fields

/-- The message `m` is what the program answers to the request which reached the router as `seen`, after those of `history`: TRACE requests for a route which has no handler for them are answered by the router itself, with 200 and the text of
the request, after the texts of all earlier ones which were answered so (see C42); all others are answered by the handler which is to be called. -/
def MetWith (E : Setup σ ρ) (text : GoErr → Bytes) (ops : List (Op Act)) (L : Lookup) (defaults : List (Bytes × Bytes)) (history : List Request) (seen : Request) (meth : Method) (m : Msg) : Prop :=
  (Echoed ops L (arriving ops seen) → versionName (answeredIn seen) = some m.version ∧ m.code = 200 ∧ (b!"Content-Type", b!"message/http") ∈ m.fields ∧
    m.rest = echoedText ops L history ++ echo (arriving ops seen)) ∧
  (¬ Echoed ops L (arriving ops seen) → ∃ h r, Chosen E.F text ops L (arriving ops seen) h r ∧ AnsweredBy E defaults h r meth (answeredIn seen) m)

/-- What is written because of what the client sends after its well-formed requests `before`: as `Kind.Reads`, with the handlers of the program which answer. -/
def Kind.Gets (E : Setup σ ρ) (text : GoErr → Bytes) (ops : List (Op Act)) (L : Lookup) (defaults : List (Bytes × Bytes)) (before : List Sending) (lim : Limits) (maxTokens : Nat) (remote tail : Bytes)
    (post : List (Bytes × Option GoErr)) (written : Bytes) : Kind → Prop
  | unfinished => written = []
  | crashing => written = []
  | faulty e => e ≠ Status.ErrUnsupportedProtocol → ∀ meth, NamesMethod tail meth →
      ∃ m seen h, readAnswers [meth] written = some [(none, m)] ∧ AtFault E.F lim maxTokens tail remote e seen ∧ handlerFor E.F text ops e.Code = some h ∧
        AnsweredBy E defaults h (failing (mutated ops seen) (.http e)) meth seen.Proto m
  | tooLong => ∃ e ∈ longErrors, e ≠ Status.ErrTooLongRequestLine → ∀ meth, NamesMethod tail meth →
      ∃ m seen h, readAnswers [meth] written = some [(none, m)] ∧ AtFault E.F lim maxTokens tail remote e seen ∧ handlerFor E.F text ops e.Code = some h ∧
        AnsweredBy E defaults h (failing (mutated ops seen) (.http e)) meth seen.Proto m
  | last h path given =>
      ∃ a history env seen world, readAnswers [h.method] written = some [a] ∧ HeardBefore E maxTokens remote post before history ∧
        Announced E maxTokens remote post env h path given seen world ∧ Interim defaults history seen a.1 ∧
        MetWith E text ops L defaults history seen h.method a.2
  | garbled h path given =>
      ∃ a rest history env seen world, readAnswer h.method written = some (a, rest) ∧ HeardBefore E maxTokens remote post before history ∧
        Announced E maxTokens remote post env h path given seen world ∧ Interim defaults history seen a.1 ∧
        MetWith E text ops L defaults history seen h.method a.2
  | outside => True

end Indigo.Spec
