/-
C107 for programs made with the built-in router.
-/
import Verif.Props.Session
import Verif.Props.EveryProgram

namespace Indigo.Props
open Indigo.Serve Indigo.Spec Indigo.Router Indigo.Spec.Router
variable {σ : Type} {text : GoErr → Bytes} {env : Env Act} {ops : List (Op Act)} {rt : Runtime Act}

theorem closeError_other : Status.ErrCloseConnection ≠ Status.ErrNotFound ∧ Status.ErrCloseConnection ≠ Status.ErrMethodNotAllowed := by decide

/-- Programs whose handlers answer are steady. -/
theorem program_steady {E : Setup σ (Runtime Act)} (router : E.router = Router.impl E.F .panic) {cfg : Config}
    (framing : ∀ d ∈ cfg.defaultHeaders.getD [], framingFields [d] = []) (made : make E.F text env ops = some rt) {L : Lookup}
    (beh : Behaves E.F text ops rt L (fun seen => ¬ (HasVariables ops ∧ (arriving ops seen).Path = [])))
    (mutators : ∀ r, Untouched r (mutated ops r)) (paths : HasVariables ops → ∀ r, r.Path ≠ [] → (mutated ops r).Path ≠ [])
    (polite : AllHandlers E.F text ops (Polite E))
    (answers : ∀ seen h r (world : Act.World σ), world.hijacked = false → ¬ Echoed ops L (arriving ops seen) → Chosen E.F text ops L (arriving ops seen) h r →
      ∃ f r' left, (h r).run E.P E.maxAlloc world = (some (f, r'), left) ∧ Readable (cfg.defaultHeaders.getD []) (answeredIn seen) f)
    (errors : ∀ e ∈ headErrors, ∀ h r (world : Act.World σ), handlerFor E.F text ops e.Code = some h → world.hijacked = false →
      ∃ f r' left, (h (failing r (.http e))).run E.P E.maxAlloc world = (some (f, r'), left) ∧ Readable (cfg.defaultHeaders.getD []) r.Proto f)
    (closings : ∀ h r (world : Act.World σ), handlerFor E.F text ops Status.ErrCloseConnection.Code = some h → world.hijacked = false →
      ∃ f r' left, (h (failing r closeError)).run E.P E.maxAlloc world = (some (f, r'), left)) :
    Steady E (cfg.defaultHeaders.getD []) rt where
  request history seen world _ hp _ := by
    obtain ⟨f, req', left, h1, h2, h3, h4⟩ := program_serves router framing made beh (seen := seen)
      (fun ⟨hv, he⟩ => paths hv seen hp (normalize_empty he)) mutators polite (answers seen) history world
    exact ⟨f, req', left, h1, h2, h3, h4.method, h4.proto⟩
  error history seen e world he hw := by
    have key : ∃ x : Status.HTTPError, e = .http x ∧ x ≠ Status.ErrNotFound ∧ x ≠ Status.ErrMethodNotAllowed ∧
        ∀ h, handlerFor E.F text ops x.Code = some h →
          ∃ f r' left, (h (failing (mutated ops seen) (.http x))).run E.P E.maxAlloc world = (some (f, r'), left) ∧ ((∃ h ∈ headErrors, e = .http h) → Readable (cfg.defaultHeaders.getD []) (mutated ops seen).Proto f) := by
      rcases he with rfl | ⟨x, hx, rfl⟩
      · refine ⟨Status.ErrCloseConnection, rfl, closeError_other.1, closeError_other.2, fun h hh => ?_⟩
        obtain ⟨f, r', left, g⟩ := closings h (mutated ops seen) world hh hw
        refine ⟨f, r', left, g, fun ⟨y, hy, e⟩ => ?_⟩
        have : ∀ y ∈ headErrors, closeError ≠ .http y := by decide
        exact absurd e (this y hy)
      · refine ⟨x, rfl, (headErrors_other x hx).1, (headErrors_other x hx).2, fun h hh => ?_⟩
        obtain ⟨f, r', left, g1, g2⟩ := errors x hx h (mutated ops seen) world hh hw
        exact ⟨f, r', left, g1, fun _ => g2⟩
    obtain ⟨x, rfl, n1, n2, hx⟩ := key
    obtain ⟨h, hh, hr⟩ := error_chosen router made history seen x n1 n2
    obtain ⟨f, r', left, g1, g2⟩ := hx h hh
    have hg := program_good polite (handlerFor_known hh)
    have hu := hg.request _ world f r' (by rw [g1])
    refine ⟨f, r', left, by rw [hr]; exact g1, ?_, ?_, hu.method.trans (mutators seen).method, hu.proto.trans (mutators seen).proto⟩
    · have := hg.hijacked (failing (mutated ops seen) (.http x)) world
      rw [g1] at this
      exact this.trans hw
    · rw [← (mutators seen).proto]; exact g2

/-- `C107_program`, for a lookup with which the router behaves as described. -/
theorem program_session (E : Setup σ (Runtime Act)) (router : E.router = Router.impl E.F .panic) (cfg : Config)
    (defaults : DefaultsOK E.F (cfg.defaultHeaders.getD [])) (framing : ∀ d ∈ cfg.defaultHeaders.getD [], framingFields [d] = [])
    (buffer : cfg.responseBuffSize < 16 ^ 8) (enc : EncToken) (remote : Bytes)
    (ops : List (Op Act)) (made : make E.F text env ops = some rt)
    (mutators : ∀ r, Untouched r (mutated ops r)) (paths : HasVariables ops → ∀ r, r.Path ≠ [] → (mutated ops r).Path ≠ [])
    (polite : AllHandlers E.F text ops (Polite E))
    {L : Lookup} (beh : Behaves E.F text ops rt L (fun seen => ¬ (HasVariables ops ∧ (arriving ops seen).Path = [])))
    (answers : ∀ seen h r (world : Act.World σ), world.hijacked = false → ¬ Echoed ops L (arriving ops seen) → Chosen E.F text ops L (arriving ops seen) h r →
      ∃ f r' left, (h r).run E.P E.maxAlloc world = (some (f, r'), left) ∧ Readable (cfg.defaultHeaders.getD []) (answeredIn seen) f)
    (errors : ∀ e ∈ headErrors, ∀ h r (world : Act.World σ), handlerFor E.F text ops e.Code = some h → world.hijacked = false →
      ∃ f r' left, (h (failing r (.http e))).run E.P E.maxAlloc world = (some (f, r'), left) ∧ Readable (cfg.defaultHeaders.getD []) r.Proto f)
    (closings : ∀ h r (world : Act.World σ), handlerFor E.F text ops Status.ErrCloseConnection.Code = some h → world.hijacked = false →
      ∃ f r' left, (h (failing r closeError)).run E.P E.maxAlloc world = (some (f, r'), left))
    (cl : Client) (writes : NoWriteError cl) :
    let r := serve E (newConn E.P cfg enc remote rt cl)
    ∃ calls last frames1 frames2 msgs, r.1.visits = calls ++ last ∧ r.1.client.written = cl.written ++ frames1 ++ frames2 ∧ msgs.length = calls.length ∧
      (∀ ms more l, readAnswers ms more = some l →
        readAnswers ((requestsOf calls).map Request.Method ++ ms) (frames1.flatten ++ more) = some (msgs ++ l)) ∧
      (∀ (i : Nat) (v : Visit σ) (a : Option Msg × Msg), calls[i]? = some v → msgs[i]? = some a → ∃ seen world answer left,
        v = .request seen world answer left ∧ seen.Path ≠ [] ∧ Interim (cfg.defaultHeaders.getD []) (requestsOf (calls.take i)) seen a.1 ∧
        MetWith E text ops L (cfg.defaultHeaders.getD []) (requestsOf (calls.take i)) seen seen.Method a.2) ∧
      ((last = [] ∧ frames2 = [] ∧ r.2 = some .panicked) ∨
       (∃ seen ans left, last = [.error seen closeError (some ans) left] ∧ frames2 = [] ∧ r.2 ∈ [some Ended.readFailed, some .writeFailed, some .clearFailed]) ∨
       (∃ seen e f req left, e ∈ headErrors ∧ last = [.error seen (.http e) (some (f, req)) left] ∧ (e ≠ Status.ErrUnsupportedProtocol → r.2 = some .rejected ∧
        ∃ h m, readAnswers [seen.Method] frames2.flatten = some [(none, m)] ∧ handlerFor E.F text ops e.Code = some h ∧
          AnsweredBy E (cfg.defaultHeaders.getD []) h (failing (mutated ops seen) (.http e)) seen.Method seen.Proto m))) := by
  have steady := program_steady router framing made beh mutators paths polite answers errors closings
  obtain ⟨calls, last, frames1, frames2, msgs, h1, h2, h3, h4, h5, h6⟩ := C107_answers E cfg defaults buffer enc remote rt steady cl writes
  have happened := C107_calls E cfg enc remote rt cl
  dsimp only at happened h1 h2 h6 ⊢
  refine ⟨calls, last, frames1, frames2, msgs, h1, h2, h3, h4, ?_, ?_⟩
  · intro i v a hv ha
    obtain ⟨seen, world, f, req, left, rfl, hint, hver, hcode, hbody, hfields⟩ := h5 i v a hv ha
    have hlt : i < calls.length := (List.getElem?_eq_some_iff.1 hv).1
    obtain ⟨hap, -⟩ := happened i (.request seen world (some (f, req)) left) (by rw [h1, List.getElem?_append_left hlt]; exact hv)
    rw [h1, List.take_append_of_le_length (Nat.le_of_lt hlt)] at hap
    obtain ⟨-, -, hp, -, ans⟩ := hap
    exact ⟨seen, world, _, left, rfl, hp, hint, served_by router made beh (fun ⟨hv, he⟩ => paths hv seen hp (normalize_empty he)) mutators ans rfl hver hcode hbody hfields⟩
  · rcases h6 with h | h | ⟨seen, e, f, req, left, he, hlast, h⟩
    · exact .inl h
    · exact .inr (.inl h)
    · refine .inr (.inr ⟨seen, e, f, req, left, he, hlast, fun hne => ?_⟩)
      obtain ⟨g1, m, g2, hver, hcode, hbody, hfields⟩ := h hne
      obtain ⟨hap, -⟩ := happened calls.length (.error seen (.http e) (some (f, req)) left) (by rw [h1, hlast]; simp)
      obtain ⟨-, world, hw, told⟩ := hap
      obtain ⟨n1, n2⟩ := headErrors_other e he
      obtain ⟨h, hh, hr⟩ := error_chosen router made _ seen e n1 n2
      rw [hr] at told
      exact ⟨g1, h, m, g2, hh, world, f, req, left, told, hver, hcode, hbody, hfields⟩

set_option linter.unusedVariables false in
/-- **C107**, for every program made with the built-in router, with routes of any texts. Its handlers answer with responses which say how long they are, and its error handlers do so when they are called because of a head which is refused; they do not hijack the connection, and leave some fields
of the request alone. Whatever comes on a connection, in whatever pieces, and with whatever errors of reading: what is written is one answer for each request the router was called with, which is the response of the handler of the program which is to be called for it
(or what the router answers itself to TRACE requests); then nothing, or the answer of the error handler of the program for the code of the error by which a head is refused. -/
theorem C107_program (E : Setup σ (Runtime Act)) (router : E.router = Router.impl E.F .panic) (cfg : Config)
    (defaults : DefaultsOK E.F (cfg.defaultHeaders.getD [])) (framing : ∀ d ∈ cfg.defaultHeaders.getD [], framingFields [d] = [])
    (buffer : cfg.responseBuffSize < 16 ^ 8) (enc : EncToken) (remote : Bytes)
    (ops : List (Op Act)) (made : make E.F text env ops = some rt)
    (mutators : ∀ r, Untouched r (mutated ops r)) (paths : HasVariables ops → ∀ r, r.Path ≠ [] → (mutated ops r).Path ≠ [])
    (polite : AllHandlers E.F text ops (Polite E)) :
    ∃ L, Looks ops L ∧ ∀
      (answers : ∀ seen h r (world : Act.World σ), world.hijacked = false → ¬ Echoed ops L (arriving ops seen) → Chosen E.F text ops L (arriving ops seen) h r →
        ∃ f r' left, (h r).run E.P E.maxAlloc world = (some (f, r'), left) ∧ Readable (cfg.defaultHeaders.getD []) (answeredIn seen) f)
      (errors : ∀ e ∈ headErrors, ∀ h r (world : Act.World σ), handlerFor E.F text ops e.Code = some h → world.hijacked = false →
        ∃ f r' left, (h (failing r (.http e))).run E.P E.maxAlloc world = (some (f, r'), left) ∧ Readable (cfg.defaultHeaders.getD []) r.Proto f)
      (closings : ∀ h r (world : Act.World σ), handlerFor E.F text ops Status.ErrCloseConnection.Code = some h → world.hijacked = false →
        ∃ f r' left, (h (failing r closeError)).run E.P E.maxAlloc world = (some (f, r'), left))
      (cl : Client) (writes : NoWriteError cl),
      let r := serve E (newConn E.P cfg enc remote rt cl)
      ∃ calls last frames1 frames2 msgs, r.1.visits = calls ++ last ∧ r.1.client.written = cl.written ++ frames1 ++ frames2 ∧ msgs.length = calls.length ∧
        (∀ ms more l, readAnswers ms more = some l →
          readAnswers ((requestsOf calls).map Request.Method ++ ms) (frames1.flatten ++ more) = some (msgs ++ l)) ∧
        (∀ (i : Nat) (v : Visit σ) (a : Option Msg × Msg), calls[i]? = some v → msgs[i]? = some a → ∃ seen world answer left,
          v = .request seen world answer left ∧ seen.Path ≠ [] ∧ Interim (cfg.defaultHeaders.getD []) (requestsOf (calls.take i)) seen a.1 ∧
          MetWith E text ops L (cfg.defaultHeaders.getD []) (requestsOf (calls.take i)) seen seen.Method a.2) ∧
        ((last = [] ∧ frames2 = [] ∧ r.2 = some .panicked) ∨
         (∃ seen ans left, last = [.error seen closeError (some ans) left] ∧ frames2 = [] ∧ r.2 ∈ [some Ended.readFailed, some .writeFailed, some .clearFailed]) ∨
         (∃ seen e f req left, e ∈ headErrors ∧ last = [.error seen (.http e) (some (f, req)) left] ∧ (e ≠ Status.ErrUnsupportedProtocol → r.2 = some .rejected ∧
          ∃ h m, readAnswers [seen.Method] frames2.flatten = some [(none, m)] ∧ handlerFor E.F text ops e.Code = some h ∧
            AnsweredBy E (cfg.defaultHeaders.getD []) h (failing (mutated ops seen) (.http e)) seen.Method seen.Proto m))) := by
  obtain ⟨L, hL, beh⟩ := behaves_any made
  exact ⟨L, hL, fun answers errors closings cl writes => program_session E router cfg defaults framing buffer enc remote ops made mutators paths polite beh answers errors closings cl writes⟩

/-! ### The hypotheses are met -/

/-- A request with a CR in the name of a header field, one whose body is not chunked as it should be, and what comes after this. -/
def strange : Client :=
  { conn := [(b!"POST /users/7 HTTP/1.1\r\nx\r", none), (b!": 1\r\n\r\nGET /users/8 HTTP/1.1\r\nTransfer-Encoding: chunked\r\n\r\nxyz\r\n", none), (b!"HEAD\r\n", none), ([], some (.other 7))] }

set_option maxRecDepth 200000 in
/-- C107 for a program with two routes which are taken for the same template, and such a client: both requests are answered. -/
example : ∃ rt, make dinerSetup.F (fun _ => []) sampleEnv users = some rt ∧ NoWriteError strange ∧
    (∀ r, Untouched r (mutated users r)) ∧ (∀ r : Request, r.Path ≠ [] → (mutated users r).Path ≠ []) ∧ AllHandlers dinerSetup.F (fun _ => []) users (Polite dinerSetup) ∧
    (∀ L, Looks users L → ∀ seen h r (world : Act.World CS), world.hijacked = false → ¬ Echoed users L (arriving users seen) →
      Chosen dinerSetup.F (fun _ => []) users L (arriving users seen) h r →
      ∃ f r' left, (h r).run dinerSetup.P dinerSetup.maxAlloc world = (some (f, r'), left) ∧ Readable (Config.default.defaultHeaders.getD []) (answeredIn seen) f) ∧
    (∀ e ∈ headErrors, ∀ h r (world : Act.World CS), handlerFor dinerSetup.F (fun _ => []) users e.Code = some h → world.hijacked = false →
      ∃ f r' left, (h (failing r (.http e))).run dinerSetup.P dinerSetup.maxAlloc world = (some (f, r'), left) ∧
        Readable (Config.default.defaultHeaders.getD []) r.Proto f) ∧
    (∀ h r (world : Act.World CS), handlerFor dinerSetup.F (fun _ => []) users Status.ErrCloseConnection.Code = some h → world.hijacked = false →
      ∃ f r' left, (h (failing r closeError)).run dinerSetup.P dinerSetup.maxAlloc world = (some (f, r'), left)) ∧
    (serve dinerSetup (newConn dinerSetup.P Config.default 1 b!"1.2.3.4" rt strange)).1.visits.length = 3 ∧
    (readAnswers [.POST, .GET] (serve dinerSetup (newConn dinerSetup.P Config.default 1 b!"1.2.3.4" rt strange)).1.client.written.flatten).map
      (List.map (fun a => (a.1.isSome, a.2.code, a.2.rest))) = some [(false, 200, b!"B"), (false, 200, b!"C")] := by
  obtain ⟨rt, made, -, h1, h2, h3, h4, h5, -⟩ := users_program
  obtain rfl : rt = (make dinerSetup.F (fun _ => []) sampleEnv users).get users_made := by simp [made]
  refine ⟨_, made, by simp [NoWriteError, strange], h1, h2, h3, h4, h5, ?_, by decide +kernel, by decide +kernel⟩
  intro h r world hh _
  have key : handlerFor dinerSetup.F (fun _ => []) users Status.ErrCloseConnection.Code = some (defaultAllErrorsHandler (fun _ => [])) := rfl
  rw [key] at hh
  cases hh
  exact ⟨_, _, _, rfl⟩

end Indigo.Props
