/-
C109 for programs, also behind virtual hosts.
-/
import Verif.Props.SessionHosts
import Verif.Props.Deaf

namespace Indigo.Props
open Indigo.Serve Indigo.Spec Indigo.Router Indigo.Spec.Router Indigo.Spec.Virtual Indigo.Serializer
variable {σ : Type} {text : GoErr → Bytes} {env : Env Act} {rt : Runtime Act}

theorem answersOf_last {calls last : List (Visit σ)} (h : ∀ v ∈ last, ∃ seen e a left, v = .error seen e a left) : answersOf (calls ++ last) = answersOf calls := by
  rw [answersOf_append]
  have : answersOf last = [] := by
    unfold answersOf
    rw [List.filterMap_eq_nil_iff]
    intro v hv
    obtain ⟨_, _, _, _, rfl⟩ := h v hv
    rfl
  rw [this, List.append_nil]

set_option linter.unusedVariables false in
/-- **C109**, for every program made with the built-in router, with routes of any texts, whose handlers answer with responses which say how long they are. Whatever comes on a connection, and whichever writes fail: what is written is the beginning of a text of complete answers, as in `C107_program`: one for each
request of `calls`, which is the response of the handler of the program which is to be called for it, and perhaps one of an error handler about a head which is refused. The requests the router was called with, and its responses to them, are the first ones of `calls`. -/
theorem C109_program (E : Setup σ (Runtime Act)) (router : E.router = Router.impl E.F .panic) (cfg : Config)
    (defaults : DefaultsOK E.F (cfg.defaultHeaders.getD [])) (framing : ∀ d ∈ cfg.defaultHeaders.getD [], framingFields [d] = [])
    (buffer : cfg.responseBuffSize < 16 ^ 8) (enc : EncToken) (remote : Bytes)
    (ops : List (Op Act)) (made : make E.F text env ops = some rt)
    (mutators : ∀ r, Untouched r (mutated ops r)) (paths : HasVariables ops → ∀ r, r.Path ≠ [] → (mutated ops r).Path ≠ [])
    (polite : AllHandlers E.F text ops (Polite E)) :
    ∃ L, Looks ops L ∧ ∀
      (answers : ∀ seen h r (world : Act.World σ), world.hijacked = false → ¬ Echoed ops L (arriving ops seen) → Chosen E.F text ops L (arriving ops seen) h r →
        ∃ f r' left, (h r).run E.P E.maxAlloc world = (some (f, r'), left) ∧ Readable (cfg.defaultHeaders.getD []) (answeredIn seen) f)
      (errors : ∀ e ∈ headErrors, ∀ h r (world : Act.World σ), handlerFor E.F text ops e.Code = some h → world.hijacked = false →
        ∃ f r' left, (h (failing r (.http e))).run E.P E.maxAlloc world = (some (f, r'), left) ∧ Readable (cfg.defaultHeaders.getD []) r.Proto f)
      (closings : ∀ h r (world : Act.World σ), handlerFor E.F text ops Status.ErrCloseConnection.Code = some h → world.hijacked = false →
        ∃ f r' left, (h (failing r closeError)).run E.P E.maxAlloc world = (some (f, r'), left))
      (cl : Client),
      let r := serve E (newConn E.P cfg enc remote rt cl)
      ∃ calls frames1 frames2 msgs, r.1.client.written <+: cl.written ++ frames1 ++ frames2 ∧ answersOf r.1.visits <+: answersOf calls ∧ msgs.length = calls.length ∧
        (∀ ms more l, readAnswers ms more = some l →
          readAnswers ((requestsOf calls).map Request.Method ++ ms) (frames1.flatten ++ more) = some (msgs ++ l)) ∧
        (∀ (i : Nat) (v : Visit σ) (a : Option Msg × Msg), calls[i]? = some v → msgs[i]? = some a → ∃ seen world answer left,
          v = .request seen world answer left ∧ seen.Path ≠ [] ∧ Interim (cfg.defaultHeaders.getD []) (requestsOf (calls.take i)) seen a.1 ∧
          MetWith E text ops L (cfg.defaultHeaders.getD []) (requestsOf (calls.take i)) seen seen.Method a.2) ∧
        (frames2 = [] ∨ ∃ seen e, e ∈ headErrors ∧ (e ≠ Status.ErrUnsupportedProtocol →
          ∃ h m, readAnswers [seen.Method] frames2.flatten = some [(none, m)] ∧ handlerFor E.F text ops e.Code = some h ∧
            AnsweredBy E (cfg.defaultHeaders.getD []) h (failing (mutated ops seen) (.http e)) seen.Method seen.Proto m)) := by
  obtain ⟨L, hL, beh⟩ := behaves_any made
  refine ⟨L, hL, ?_⟩
  intro answers errors closings cl
  have steady := program_steady router framing made beh mutators paths polite answers errors closings
  obtain ⟨b1, b2⟩ := C109_beginning E cfg enc remote rt cl (steady_calm E cfg enc remote rt _ steady cl)
  obtain ⟨calls, last, frames1, frames2, msgs, h1, h2, h3, h4, h5, h6⟩ := program_session E router cfg defaults framing buffer enc remote ops made mutators paths polite beh
    answers errors closings { cl with wscript := [] } (by simp [NoWriteError])
  dsimp only at h1 h2 h6 ⊢
  rw [h2] at b1
  rw [h1, answersOf_last (by
    rcases h6 with ⟨rfl, -⟩ | ⟨_, _, _, rfl, -⟩ | ⟨_, _, _, _, _, -, rfl, -⟩
    · simp
    · intro v hv; cases List.mem_singleton.1 hv; exact ⟨_, _, _, _, rfl⟩
    · intro v hv; cases List.mem_singleton.1 hv; exact ⟨_, _, _, _, rfl⟩)] at b2
  refine ⟨calls, frames1, frames2, msgs, b1, b2, h3, h4, h5, ?_⟩
  rcases h6 with ⟨-, e, -⟩ | ⟨_, _, _, -, e, -⟩ | ⟨seen, e, _, _, _, he, -, h⟩
  · exact .inl e
  · exact .inl e
  · exact .inr ⟨seen, e, he, fun hne => (h hne).2⟩

set_option linter.unusedVariables false in
/-- **C109**, for several programs behind virtual hosts, as in `C107_hosts`: whatever comes on a connection, and whichever writes fail. -/
theorem C109_hosts (E : Setup σ (Virtual.Runtime (Runtime Act))) (router : E.router = Virtual.impl E.F (Router.impl E.F .panic)) (cfg : Config)
    (defaults : DefaultsOK E.F (cfg.defaultHeaders.getD [])) (framing : ∀ d ∈ cfg.defaultHeaders.getD [], framingFields [d] = [])
    (buffer : cfg.responseBuffSize < 16 ^ 8) (enc : EncToken) (remote : Bytes)
    (vops : List (Virtual.Op Tenant)) (tenants : ∀ t, Registered vops t → TenantAny E text t) (plainHosts : ∀ e ∈ hostsRegistered vops, ∀ c ∈ e.1, HostChar c) :
    ∃ look : Tenant → Lookup, (∀ t, Registered vops t → Looks t.ops (look t)) ∧ ∀
      (answers : ∀ t, Registered vops t → ∀ seen h r (world : Act.World σ), world.hijacked = false → ¬ Echoed t.ops (look t) (arriving t.ops seen) →
        Chosen E.F text t.ops (look t) (arriving t.ops seen) h r →
        ∃ f r' left, (h r).run E.P E.maxAlloc world = (some (f, r'), left) ∧ Readable (cfg.defaultHeaders.getD []) (answeredIn seen) f)
      (errors : ∀ t, Registered vops t → ∀ e ∈ headErrors, ∀ h r (world : Act.World σ), handlerFor E.F text t.ops e.Code = some h → world.hijacked = false →
        ∃ f r' left, (h (failing r (.http e))).run E.P E.maxAlloc world = (some (f, r'), left) ∧ Readable (cfg.defaultHeaders.getD []) r.Proto f)
      (closings : ∀ t, Registered vops t → ∀ h r (world : Act.World σ), handlerFor E.F text t.ops Status.ErrCloseConnection.Code = some h → world.hijacked = false →
        ∃ f r' left, (h (failing r closeError)).run E.P E.maxAlloc world = (some (f, r'), left))
      (cl : Client),
      let r := serve E (newConn E.P cfg enc remote (Virtual.initRouter Tenant.router (Virtual.build vops)) cl)
      ∃ calls frames1 frames2 msgs, r.1.client.written <+: cl.written ++ frames1 ++ frames2 ∧ answersOf r.1.visits <+: answersOf calls ∧ msgs.length = calls.length ∧
        (∀ ms more l, readAnswers ms more = some l →
          readAnswers ((requestsOf calls).map Request.Method ++ ms) (frames1.flatten ++ more) = some (msgs ++ l)) ∧
        (∀ (i : Nat) (v : Visit σ) (a : Option Msg × Msg), calls[i]? = some v → msgs[i]? = some a → ∃ seen world answer left,
          v = .request seen world answer left ∧ seen.Path ≠ [] ∧ Interim (cfg.defaultHeaders.getD []) (requestsOf (calls.take i)) seen a.1 ∧
          ((∀ q ∈ requestsOf (calls.take i), PlainSeen q) → PlainSeen seen →
            MetAt E text vops look (cfg.defaultHeaders.getD []) (requestsOf (calls.take i)) (hostsOf seen) seen seen.Method a.2)) ∧
        (frames2 = [] ∨ ∃ seen e, e ∈ headErrors ∧ (e ≠ Status.ErrUnsupportedProtocol →
          ∃ m, readAnswers [seen.Method] frames2.flatten = some [(none, m)] ∧
            (PlainSeen seen → ExcusedAt E text vops (cfg.defaultHeaders.getD []) e seen seen.Method m))) := by
  obtain ⟨look, hL, beh⟩ := looks_all (F := E.F) (text := text) (vops := vops) (fun t ht => (tenants t ht).made)
  refine ⟨look, hL, ?_⟩
  intro answers errors closings cl
  have steady := hosts_steady router framing tenants beh answers errors closings
  obtain ⟨b1, b2⟩ := C109_beginning E cfg enc remote _ cl (steady_calm E cfg enc remote _ _ steady cl)
  obtain ⟨calls, last, frames1, frames2, msgs, h1, h2, h3, h4, h5, h6⟩ := hosts_session E router cfg defaults framing buffer enc remote vops tenants plainHosts beh
    answers errors closings { cl with wscript := [] } (by simp [NoWriteError])
  dsimp only at h1 h2 h6 ⊢
  rw [h2] at b1
  rw [h1, answersOf_last (by
    rcases h6 with ⟨rfl, -⟩ | ⟨_, _, _, rfl, -⟩ | ⟨_, _, _, _, _, -, rfl, -⟩
    · simp
    · intro v hv; cases List.mem_singleton.1 hv; exact ⟨_, _, _, _, rfl⟩
    · intro v hv; cases List.mem_singleton.1 hv; exact ⟨_, _, _, _, rfl⟩)] at b2
  refine ⟨calls, frames1, frames2, msgs, b1, b2, h3, h4, h5, ?_⟩
  rcases h6 with ⟨-, e, -⟩ | ⟨_, _, _, -, e, -⟩ | ⟨seen, e, _, _, _, he, -, h⟩
  · exact .inl e
  · exact .inl e
  · exact .inr ⟨seen, e, he, fun hne => (h hne).2⟩

/-! ### The hypotheses are met (for those on the programs, see the examples for `C107_program` and `C107_hosts`) -/

set_option maxRecDepth 200000 in
/-- C109 for two programs behind virtual hosts: of the answers to the requests of `wanderer` the third one cannot be written; the handler is not called for the fourth request. -/
example : (serve streetSetup (newConn streetSetup.P Config.default 1 b!"1.2.3.4" (Virtual.initRouter Tenant.router (Virtual.build village)) { wanderer with wscript := [none, none, some (.other 32)] })).1.client.written.length = 3 ∧
    (serve streetSetup (newConn streetSetup.P Config.default 1 b!"1.2.3.4" (Virtual.initRouter Tenant.router (Virtual.build village)) { wanderer with wscript := [none, none, some (.other 32)] })).1.visits.length = 4 ∧
    (serve streetSetup (newConn streetSetup.P Config.default 1 b!"1.2.3.4" (Virtual.initRouter Tenant.router (Virtual.build village)) wanderer)).1.visits.length = 5 := by
  refine ⟨?_, ?_, ?_⟩ <;> decide +kernel

end Indigo.Props
