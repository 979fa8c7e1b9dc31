/-
C107 for programs behind virtual hosts.
-/
import Verif.Props.EveryHost
import Verif.Props.SessionProgram

namespace Indigo.Props
open Indigo.Serve Indigo.Spec Indigo.Router Indigo.Spec.Router Indigo.Spec.Virtual
variable {σ : Type} {text : GoErr → Bytes}

/-- Programs behind virtual hosts are steady, if their handlers answer. -/
theorem hosts_steady {E : Setup σ (Virtual.Runtime (Runtime Act))} (router : E.router = Virtual.impl E.F (Router.impl E.F .panic)) {cfg : Config}
    (framing : ∀ d ∈ cfg.defaultHeaders.getD [], framingFields [d] = []) {vops : List (Virtual.Op Tenant)}
    (tenants : ∀ t, Registered vops t → TenantAny E text t) {look : Tenant → Lookup}
    (beh : ∀ t, Registered vops t → Behaves E.F text t.ops t.router (look t) (fun seen => ¬ (HasVariables t.ops ∧ (arriving t.ops seen).Path = [])))
    (answers : ∀ t, Registered vops t → ∀ seen h r (world : Act.World σ), world.hijacked = false → ¬ Echoed t.ops (look t) (arriving t.ops seen) →
      Chosen E.F text t.ops (look t) (arriving t.ops seen) h r →
      ∃ f r' left, (h r).run E.P E.maxAlloc world = (some (f, r'), left) ∧ Readable (cfg.defaultHeaders.getD []) (answeredIn seen) f)
    (errors : ∀ t, Registered vops t → ∀ e ∈ headErrors, ∀ h r (world : Act.World σ), handlerFor E.F text t.ops e.Code = some h → world.hijacked = false →
      ∃ f r' left, (h (failing r (.http e))).run E.P E.maxAlloc world = (some (f, r'), left) ∧ Readable (cfg.defaultHeaders.getD []) r.Proto f)
    (closings : ∀ t, Registered vops t → ∀ h r (world : Act.World σ), handlerFor E.F text t.ops Status.ErrCloseConnection.Code = some h → world.hijacked = false →
      ∃ f r' left, (h (failing r closeError)).run E.P E.maxAlloc world = (some (f, r'), left)) :
    Steady E (cfg.defaultHeaders.getD []) (Virtual.initRouter Tenant.router (Virtual.build vops)) where
  request history seen world _ hne _ := by
    unfold Answers
    rw [virtual_after router, router]
    rcases served_any E.F (V E) Tenant.router vops (history.map .request) seen with ⟨code, hc, hs, hp, h1, -⟩ | ⟨t, past, ht, hs, hp, h1, -⟩
    · rw [h1]
      exact ⟨_, _, _, rfl, rfl, refusal_readable _ framing _ hc, rfl, rfl⟩
    · obtain ⟨env, made⟩ := (tenants t ht).made
      obtain ⟨b, hb⟩ := history_buff made .panic past
      rw [h1, hb]
      obtain ⟨f, req', left, g1, g2, g3, g4⟩ := tenant_serves framing (seen := { seen with Headers := hs }) (beh t ht)
        (fun ⟨hv, he⟩ => (tenants t ht).paths hv { seen with Headers := hs } hne (normalize_empty he)) (tenants t ht).mutators (tenants t ht).polite (answers t ht _) b world
      exact ⟨f, req', left, g1, g2, g3, g4.method, g4.proto⟩
  error history seen e world he hw := by
    rw [virtual_after router, router]
    rcases served_any E.F (V E) Tenant.router vops (history.map .request) seen with ⟨code, hc, hs, hp, -, h1⟩ | ⟨t, past, ht, hs, hp, -, h1⟩
    · rw [h1 _]
      exact ⟨_, _, _, rfl, hw, fun _ => refusal_readable _ framing _ hc, rfl, rfl⟩
    · have T := tenants t ht
      obtain ⟨env, made⟩ := T.made
      obtain ⟨b, hb⟩ := history_buff made .panic past
      rw [h1 _, hb]
      have key : ∃ x : Status.HTTPError, e = .http x ∧ x ≠ Status.ErrNotFound ∧ x ≠ Status.ErrMethodNotAllowed ∧
          ∀ h r, handlerFor E.F text t.ops x.Code = some h →
            ∃ f r' left, (h (failing r (.http x))).run E.P E.maxAlloc world = (some (f, r'), left) ∧ ((∃ h ∈ headErrors, e = .http h) → Readable (cfg.defaultHeaders.getD []) r.Proto f) := by
        rcases he with rfl | ⟨x, hx, rfl⟩
        · refine ⟨Status.ErrCloseConnection, rfl, closeError_other.1, closeError_other.2, fun h r hh => ?_⟩
          obtain ⟨f, r', left, g⟩ := closings t ht h r world hh hw
          refine ⟨f, r', left, g, fun ⟨y, hy, e⟩ => ?_⟩
          have : ∀ y ∈ headErrors, closeError ≠ .http y := by decide
          exact absurd e (this y hy)
        · refine ⟨x, rfl, (headErrors_other x hx).1, (headErrors_other x hx).2, fun h r hh => ?_⟩
          obtain ⟨f, r', left, g1, g2⟩ := errors t ht x hx h r world hh hw
          exact ⟨f, r', left, g1, fun _ => g2⟩
      obtain ⟨x, rfl, n1, n2, hx⟩ := key
      obtain ⟨h, hh, hr⟩ := tenant_excuses made b { seen with Headers := hs } x n1 n2
      obtain ⟨f, r', left, g1, g2⟩ := hx h (mutated t.ops { seen with Headers := hs }) hh
      have hg := program_good T.polite (handlerFor_known hh)
      have hu := hg.request _ world f r' (by rw [g1])
      refine ⟨f, r', left, by rw [hr]; exact g1, ?_, ?_, hu.method.trans (T.mutators _).method, hu.proto.trans (T.mutators _).proto⟩
      · have := hg.hijacked (failing (mutated t.ops { seen with Headers := hs }) (.http x)) world
        rw [g1] at this
        exact this.trans hw
      · have := (T.mutators { seen with Headers := hs }).proto
        rw [this] at g2
        exact g2

/-- The lookups of all programs. -/
theorem looks_all {F : Fold} {vops : List (Virtual.Op Tenant)} (made : ∀ t, Registered vops t → ∃ env, make F text env t.ops = some t.router) :
    ∃ look : Tenant → Lookup, (∀ t, Registered vops t → Looks t.ops (look t)) ∧
      ∀ t, Registered vops t → Behaves F text t.ops t.router (look t) (fun seen => ¬ (HasVariables t.ops ∧ (arriving t.ops seen).Path = [])) := by
  classical
  have each : ∀ t, ∃ L, Registered vops t → Looks t.ops L ∧ Behaves F text t.ops t.router L (fun seen => ¬ (HasVariables t.ops ∧ (arriving t.ops seen).Path = [])) := by
    intro t
    by_cases ht : Registered vops t
    · obtain ⟨env, made⟩ := made t ht
      obtain ⟨L, hL, hb⟩ := behaves_any made
      exact ⟨L, fun _ => ⟨hL, hb⟩⟩
    · exact ⟨.static (m := Act) [], fun h => absurd h ht⟩
  obtain ⟨look, hlook⟩ := Classical.axiomOfChoice (r := fun (t : Tenant) (L : Lookup) => Registered vops t → Looks t.ops L ∧ Behaves F text t.ops t.router L (fun seen => ¬ (HasVariables t.ops ∧ (arriving t.ops seen).Path = []))) each
  exact ⟨look, fun t ht => (hlook t ht).1, fun t ht => (hlook t ht).2⟩

/-- `C107_hosts`, for lookups with which the routers behave as described. -/
theorem hosts_session (E : Setup σ (Virtual.Runtime (Runtime Act))) (router : E.router = Virtual.impl E.F (Router.impl E.F .panic)) (cfg : Config)
    (defaults : DefaultsOK E.F (cfg.defaultHeaders.getD [])) (framing : ∀ d ∈ cfg.defaultHeaders.getD [], framingFields [d] = [])
    (buffer : cfg.responseBuffSize < 16 ^ 8) (enc : EncToken) (remote : Bytes)
    (vops : List (Virtual.Op Tenant)) (tenants : ∀ t, Registered vops t → TenantAny E text t) (plainHosts : ∀ e ∈ hostsRegistered vops, ∀ c ∈ e.1, HostChar c)
    {look : Tenant → Lookup} (beh : ∀ t, Registered vops t → Behaves E.F text t.ops t.router (look t) (fun seen => ¬ (HasVariables t.ops ∧ (arriving t.ops seen).Path = [])))
    (answers : ∀ t, Registered vops t → ∀ seen h r (world : Act.World σ), world.hijacked = false → ¬ Echoed t.ops (look t) (arriving t.ops seen) →
      Chosen E.F text t.ops (look t) (arriving t.ops seen) h r →
      ∃ f r' left, (h r).run E.P E.maxAlloc world = (some (f, r'), left) ∧ Readable (cfg.defaultHeaders.getD []) (answeredIn seen) f)
    (errors : ∀ t, Registered vops t → ∀ e ∈ headErrors, ∀ h r (world : Act.World σ), handlerFor E.F text t.ops e.Code = some h → world.hijacked = false →
      ∃ f r' left, (h (failing r (.http e))).run E.P E.maxAlloc world = (some (f, r'), left) ∧ Readable (cfg.defaultHeaders.getD []) r.Proto f)
    (closings : ∀ t, Registered vops t → ∀ h r (world : Act.World σ), handlerFor E.F text t.ops Status.ErrCloseConnection.Code = some h → world.hijacked = false →
      ∃ f r' left, (h (failing r closeError)).run E.P E.maxAlloc world = (some (f, r'), left))
    (cl : Client) (writes : NoWriteError cl) :
    let r := serve E (newConn E.P cfg enc remote (Virtual.initRouter Tenant.router (Virtual.build vops)) cl)
    ∃ calls last frames1 frames2 msgs, r.1.visits = calls ++ last ∧ r.1.client.written = cl.written ++ frames1 ++ frames2 ∧ msgs.length = calls.length ∧
      (∀ ms more l, readAnswers ms more = some l →
        readAnswers ((requestsOf calls).map Request.Method ++ ms) (frames1.flatten ++ more) = some (msgs ++ l)) ∧
      (∀ (i : Nat) (v : Visit σ) (a : Option Msg × Msg), calls[i]? = some v → msgs[i]? = some a → ∃ seen world answer left,
        v = .request seen world answer left ∧ seen.Path ≠ [] ∧ Interim (cfg.defaultHeaders.getD []) (requestsOf (calls.take i)) seen a.1 ∧
        ((∀ q ∈ requestsOf (calls.take i), PlainSeen q) → PlainSeen seen →
          MetAt E text vops look (cfg.defaultHeaders.getD []) (requestsOf (calls.take i)) (hostsOf seen) seen seen.Method a.2)) ∧
      ((last = [] ∧ frames2 = [] ∧ r.2 = some .panicked) ∨
       (∃ seen ans left, last = [.error seen closeError (some ans) left] ∧ frames2 = [] ∧ r.2 ∈ [some Ended.readFailed, some .writeFailed, some .clearFailed]) ∨
       (∃ seen e f req left, e ∈ headErrors ∧ last = [.error seen (.http e) (some (f, req)) left] ∧ (e ≠ Status.ErrUnsupportedProtocol → r.2 = some .rejected ∧
        ∃ m, readAnswers [seen.Method] frames2.flatten = some [(none, m)] ∧
          (PlainSeen seen → ExcusedAt E text vops (cfg.defaultHeaders.getD []) e seen seen.Method m)))) := by
  have steady := hosts_steady router framing tenants beh answers errors closings
  obtain ⟨calls, last, frames1, frames2, msgs, h1, h2, h3, h4, h5, h6⟩ := C107_answers E cfg defaults buffer enc remote _ steady cl writes
  have happened := C107_calls E cfg enc remote (Virtual.initRouter Tenant.router (Virtual.build vops)) cl
  dsimp only at happened h1 h2 h6 ⊢
  refine ⟨calls, last, frames1, frames2, msgs, h1, h2, h3, h4, ?_, ?_⟩
  · intro i v a hv ha
    obtain ⟨seen, world, f, req, left, rfl, hint, hver, hcode, hbody, hfields⟩ := h5 i v a hv ha
    have hlt : i < calls.length := (List.getElem?_eq_some_iff.1 hv).1
    obtain ⟨hap, -⟩ := happened i (.request seen world (some (f, req)) left) (by rw [h1, List.getElem?_append_left hlt]; exact hv)
    rw [h1, List.take_append_of_le_length (Nat.le_of_lt hlt)] at hap
    obtain ⟨-, -, hp, -, ans⟩ := hap
    refine ⟨seen, world, _, left, rfl, hp, hint, fun before plain => ?_⟩
    exact met_at router tenants plainHosts beh (fun t ht hs ⟨hv, he⟩ => (tenants t ht).paths hv { seen with Headers := hs } hp (normalize_empty he))
      (by
        intro e he
        obtain ⟨q, hq, rfl⟩ := List.mem_map.1 he
        exact plain_seen (before q hq) plainHosts) plain ans rfl hver hcode hbody hfields
  · rcases h6 with h | h | ⟨seen, e, f, req, left, he, hlast, h⟩
    · exact .inl h
    · exact .inr (.inl h)
    · refine .inr (.inr ⟨seen, e, f, req, left, he, hlast, fun hne => ?_⟩)
      obtain ⟨g1, m, g2, hver, hcode, hbody, hfields⟩ := h hne
      refine ⟨g1, m, g2, fun plain => ?_⟩
      obtain ⟨hap, -⟩ := happened calls.length (.error seen (.http e) (some (f, req)) left) (by rw [h1, hlast]; simp)
      obtain ⟨-, world, hw, told⟩ := hap
      obtain ⟨n1, n2⟩ := headErrors_other e he
      rw [virtual_after router, router] at told
      have key := dispatches E vops ((requestsOf ((calls ++ last).take calls.length)).map .request) seen (plain_seen plain plainHosts)
      rw [← h1] at key
      unfold ExcusedAt
      cases ha : answerer vops (hostsOf seen) with
      | refusal code =>
        rw [ha] at key
        obtain ⟨hs, -, -, k1⟩ := key
        rw [k1 _] at told
        cases told
        refine ⟨hver, hcode, ?_, hfields⟩
        rw [hbody]
        split <;> rfl
      | tenant t =>
        rw [ha] at key
        obtain ⟨past, ⟨hs, hp, -, k1⟩, -⟩ := key
        have ht := answerer_tenant ha
        obtain ⟨env, made⟩ := (tenants t ht).made
        obtain ⟨b, hb⟩ := history_buff made .panic past
        obtain ⟨h, hh, hr⟩ := tenant_excuses made b { seen with Headers := hs } e n1 n2
        rw [k1 _, hb, hr] at told
        exact ⟨h, { seen with Headers := hs }, bared_headers seen hs hp, hh, world, f, req, left, told, hver, hcode, hbody, hfields⟩

set_option linter.unusedVariables false in
/-- **C107**, for several programs behind virtual hosts, with routes of any texts. Their handlers answer with responses which say how long they are, and their error handlers do so when they are called because of a head which is refused; they do not hijack the connection, and leave some
fields of the request alone. Whatever comes on a connection, in whatever pieces, and with whatever errors of reading: what is written is one complete answer for each request the virtual router was called with; then nothing, or one answer about a head which is refused. If hosts and names of headers are of letters, digits, `-`, `.`
and `:`, then each answer is the one of the program which the `Host` of the request is for, having seen the earlier requests for the same host and no others, or a refusal by the virtual router; and the answer about a refused head is given by the error handler of the program which the `Host` read before the fault is for, or is such a refusal. -/
theorem C107_hosts (E : Setup σ (Virtual.Runtime (Runtime Act))) (router : E.router = Virtual.impl E.F (Router.impl E.F .panic)) (cfg : Config)
    (defaults : DefaultsOK E.F (cfg.defaultHeaders.getD [])) (framing : ∀ d ∈ cfg.defaultHeaders.getD [], framingFields [d] = [])
    (buffer : cfg.responseBuffSize < 16 ^ 8) (enc : EncToken) (remote : Bytes)
    (vops : List (Virtual.Op Tenant)) (tenants : ∀ t, Registered vops t → TenantAny E text t) (plainHosts : ∀ e ∈ hostsRegistered vops, ∀ c ∈ e.1, HostChar c) :
    ∃ look : Tenant → Lookup, (∀ t, Registered vops t → Looks t.ops (look t)) ∧ ∀
      (answers : ∀ t, Registered vops t → ∀ seen h r (world : Act.World σ), world.hijacked = false → ¬ Echoed t.ops (look t) (arriving t.ops seen) →
        Chosen E.F text t.ops (look t) (arriving t.ops seen) h r →
        ∃ f r' left, (h r).run E.P E.maxAlloc world = (some (f, r'), left) ∧ Readable (cfg.defaultHeaders.getD []) (answeredIn seen) f)
      (errors : ∀ t, Registered vops t → ∀ e ∈ headErrors, ∀ h r (world : Act.World σ), handlerFor E.F text t.ops e.Code = some h → world.hijacked = false →
        ∃ f r' left, (h (failing r (.http e))).run E.P E.maxAlloc world = (some (f, r'), left) ∧ Readable (cfg.defaultHeaders.getD []) r.Proto f)
      (closings : ∀ t, Registered vops t → ∀ h r (world : Act.World σ), handlerFor E.F text t.ops Status.ErrCloseConnection.Code = some h → world.hijacked = false →
        ∃ f r' left, (h (failing r closeError)).run E.P E.maxAlloc world = (some (f, r'), left))
      (cl : Client) (writes : NoWriteError cl),
      let r := serve E (newConn E.P cfg enc remote (Virtual.initRouter Tenant.router (Virtual.build vops)) cl)
      ∃ calls last frames1 frames2 msgs, r.1.visits = calls ++ last ∧ r.1.client.written = cl.written ++ frames1 ++ frames2 ∧ msgs.length = calls.length ∧
        (∀ ms more l, readAnswers ms more = some l →
          readAnswers ((requestsOf calls).map Request.Method ++ ms) (frames1.flatten ++ more) = some (msgs ++ l)) ∧
        (∀ (i : Nat) (v : Visit σ) (a : Option Msg × Msg), calls[i]? = some v → msgs[i]? = some a → ∃ seen world answer left,
          v = .request seen world answer left ∧ seen.Path ≠ [] ∧ Interim (cfg.defaultHeaders.getD []) (requestsOf (calls.take i)) seen a.1 ∧
          ((∀ q ∈ requestsOf (calls.take i), PlainSeen q) → PlainSeen seen →
            MetAt E text vops look (cfg.defaultHeaders.getD []) (requestsOf (calls.take i)) (hostsOf seen) seen seen.Method a.2)) ∧
        ((last = [] ∧ frames2 = [] ∧ r.2 = some .panicked) ∨
         (∃ seen ans left, last = [.error seen closeError (some ans) left] ∧ frames2 = [] ∧ r.2 ∈ [some Ended.readFailed, some .writeFailed, some .clearFailed]) ∨
         (∃ seen e f req left, e ∈ headErrors ∧ last = [.error seen (.http e) (some (f, req)) left] ∧ (e ≠ Status.ErrUnsupportedProtocol → r.2 = some .rejected ∧
          ∃ m, readAnswers [seen.Method] frames2.flatten = some [(none, m)] ∧
            (PlainSeen seen → ExcusedAt E text vops (cfg.defaultHeaders.getD []) e seen seen.Method m)))) := by
  obtain ⟨look, hL, beh⟩ := looks_all (F := E.F) (text := text) (vops := vops) (fun t ht => (tenants t ht).made)
  exact ⟨look, hL, fun answers errors closings cl writes => hosts_session E router cfg defaults framing buffer enc remote vops tenants plainHosts beh answers errors closings cl writes⟩

/-! ### The hypotheses are met -/

theorem village_closings : ∀ t, Registered village t → ∀ h r (world : Act.World CS), handlerFor streetSetup.F (fun _ => []) t.ops Status.ErrCloseConnection.Code = some h → world.hijacked = false →
    ∃ f r' left, (h (failing r closeError)).run streetSetup.P streetSetup.maxAlloc world = (some (f, r'), left) := by
  have all : ∀ t, Registered village t → ∃ x y, t = innTenant x y := by
    intro t ht
    rcases ht with ht | ht
    · have : hostsRegistered village = [(b!"a.com", innTenant b!"A" b!"not A"), (b!"b.org", innTenant b!"B" b!"not B")] := by
        simp [hostsRegistered, village, show ¬ IsAny b!"a.com" by decide, show ¬ IsAny b!"b.org" by decide]
      rw [this] at ht
      simp only [List.map_cons, List.map_nil, List.mem_cons, List.not_mem_nil, or_false] at ht
      rcases ht with rfl | rfl <;> exact ⟨_, _, rfl⟩
    · have : defaultsRegistered village = [] := by
        simp [defaultsRegistered, village, show ¬ IsAny b!"a.com" by decide, show ¬ IsAny b!"b.org" by decide]
      rw [this] at ht
      cases ht
  intro t ht h r world hh _
  obtain ⟨x, y, rfl⟩ := all t ht
  have key : handlerFor streetSetup.F (fun _ => []) (inn x y) Status.ErrCloseConnection.Code = some (defaultAllErrorsHandler (fun _ => [])) := rfl
  rw [show (innTenant x y).ops = inn x y from rfl, key] at hh
  cases hh
  exact ⟨_, _, _, rfl⟩

/-- Requests for two hosts, one for a host nobody is registered for, one with a CR in the name of a header field, and one whose body is not chunked as it should be; then reading fails. -/
def wanderer : Client :=
  { conn := [(b!"GET / HTTP/1.1\r\nHost: b.org\r\n\r\nGET / HTTP/1.1\r\nHo", none), (b!"st: c.net\r\n\r\nHEAD / HTTP/1.1\r\nx\r", none),
      (b!": 1\r\nHost: A.COM\r\n\r\nGET / HTTP/1.1\r\nHost: a.com\r\nTransfer-Encoding: chunked\r\n\r\nxyz\r\n", none), (b!"HEAD\r\n", none), ([], some (.other 7))] }

set_option maxRecDepth 200000 in
/-- C107 for two programs behind virtual hosts, and such a client. -/
example : (∀ t, Registered village t → TenantAny streetSetup (fun _ => []) t) ∧ (∀ e ∈ hostsRegistered village, ∀ c ∈ e.1, HostChar c) ∧
    (∀ t, Registered village t → ∀ L seen h r (world : Act.World CS), Chosen streetSetup.F (fun _ => []) t.ops L (arriving t.ops seen) h r →
      ∃ f r' left, (h r).run streetSetup.P streetSetup.maxAlloc world = (some (f, r'), left) ∧ Readable (Config.default.defaultHeaders.getD []) (answeredIn seen) f) ∧
    (∀ t, Registered village t → ∀ e ∈ headErrors, ∀ h r (world : Act.World CS), handlerFor streetSetup.F (fun _ => []) t.ops e.Code = some h →
      ∃ f r' left, (h (failing r (.http e))).run streetSetup.P streetSetup.maxAlloc world = (some (f, r'), left) ∧ Readable (Config.default.defaultHeaders.getD []) r.Proto f) ∧
    (∀ t, Registered village t → ∀ h r (world : Act.World CS), handlerFor streetSetup.F (fun _ => []) t.ops Status.ErrCloseConnection.Code = some h → world.hijacked = false →
      ∃ f r' left, (h (failing r closeError)).run streetSetup.P streetSetup.maxAlloc world = (some (f, r'), left)) ∧ NoWriteError wanderer ∧
    (readAnswers [.GET, .GET, .HEAD, .GET]
      (serve streetSetup (newConn streetSetup.P Config.default 1 b!"1.2.3.4" (Virtual.initRouter Tenant.router (Virtual.build village)) wanderer)).1.client.written.flatten).map
      (List.map (fun a => (a.1.isSome, a.2.code, a.2.rest))) = some [(false, 200, b!"B"), (false, 421, []), (false, 200, []), (false, 200, b!"A")] :=
  ⟨village_ok.1, village_ok.2.1, village_ok.2.2.1, village_ok.2.2.2, village_closings, by simp [NoWriteError, wanderer], by decide +kernel⟩

end Indigo.Props
