/-
C99 for any client: several programs behind virtual hosts.
-/
import Verif.Props.EveryProgram
import Verif.Spec.EveryHost

namespace Indigo.Props
open Indigo.Serve Indigo.Spec Indigo.Router Indigo.Spec.Router Indigo.Spec.Virtual
variable {σ : Type} {text : GoErr → Bytes}

/-- What is asked of a program: it could be made; its mutators and handlers leave alone what the server needs; if it has routes with variables, its mutators do not make paths empty. -/
structure TenantAny {σ ρ : Type} (E : Setup σ ρ) (text : GoErr → Bytes) (t : Tenant) : Prop where
  made : ∃ env, make E.F text env t.ops = some t.router
  mutators : ∀ r, Untouched r (mutated t.ops r)
  paths : HasVariables t.ops → ∀ r, r.Path ≠ [] → (mutated t.ops r).Path ≠ []
  polite : AllHandlers E.F text t.ops (Polite E)

/-- What a program answers to any request, whatever it has echoed before. -/
theorem tenant_serves {ρ : Type} {E : Setup σ ρ} {ops : List (Op Act)} {rt : Runtime Act} {defs : List (Bytes × Bytes)}
    (framing : ∀ d ∈ defs, framingFields [d] = []) {L : Lookup} {seen : Request} {can : Request → Prop}
    (beh : Behaves E.F text ops rt L can) (hcan : can seen)
    (mutators : ∀ r, Untouched r (mutated ops r)) (polite : AllHandlers E.F text ops (Polite E))
    (answers : ∀ h r (world : Act.World σ), world.hijacked = false → ¬ Echoed ops L (arriving ops seen) → Chosen E.F text ops L (arriving ops seen) h r →
      ∃ f r' left, (h r).run E.P E.maxAlloc world = (some (f, r'), left) ∧ Readable defs (answeredIn seen) f)
    (b : Bytes) (world : BC σ) :
    ∃ f req' left, ((Router.impl (m := Act) E.F .panic).onRequest { rt with traceBuff := b } seen).1.run E.P E.maxAlloc ⟨world.1, world.2, false⟩ = (some (f, req'), left) ∧
      left.hijacked = false ∧ Readable defs (answeredIn seen) f ∧ Untouched seen req' := by
  have arrives : ∀ r, Untouched r (arriving ops r) := fun r => (mutators r).normalised _
  by_cases he : Echoed ops L (arriving ops seen)
  · obtain ⟨r', hp, h⟩ := beh.echoes seen b he
    refine ⟨_, r', ⟨world.1, world.2, false⟩, by simp only [Router.impl]; rw [h, Option.getD_some, traceResponse_eq]; rfl, rfl, trace_readable framing _ _, (arrives seen).passed hp⟩
  · obtain ⟨h, r, hc, hr⟩ := beh.calls seen b hcan he
    obtain ⟨f, r', left, h1, h2⟩ := answers h r ⟨world.1, world.2, false⟩ rfl he hc
    have hg := program_good polite (chosen_known hc)
    have hu := ((arrives seen).trans (chosen_untouched hc)).trans (hg.request r ⟨world.1, world.2, false⟩ f r' (by rw [h1]))
    refine ⟨f, r', left, by simp only [Router.impl]; rw [hr, Option.getD_some]; exact h1, ?_, h2, hu⟩
    have := hg.hijacked r ⟨world.1, world.2, false⟩
    rw [h1] at this
    exact this

/-- The handler which is called because of an error, whatever the router has echoed before. -/
theorem tenant_excuses {F : Fold} {env : Env Act} {ops : List (Op Act)} {rt : Runtime Act} (made : make F text env ops = some rt)
    (b : Bytes) (req : Request) (e : Status.HTTPError) (h1 : e ≠ Status.ErrNotFound) (h2 : e ≠ Status.ErrMethodNotAllowed) :
    ∃ h, handlerFor F text ops e.Code = some h ∧
      ((Router.impl (m := Act) F .panic).onError { rt with traceBuff := b } req (.http e)).1 = h (failing (mutated ops req) (.http e)) := by
  obtain ⟨h, hh, hr⟩ := C41_chosen made req e (fun h => absurd h h1) (fun _ => h2)
  refine ⟨h, hh, ?_⟩
  simp only [Router.impl]
  have : (Runtime.onError F { rt with traceBuff := b } req (.http e)).1 = (Runtime.onError F rt req (.http e)).1 := by
    have h3 : ¬ (GoErr.http e = .http Status.ErrNotFound) := fun h => h1 (by simpa using h)
    have h4 : ¬ (GoErr.http e = .http Status.ErrMethodNotAllowed) := fun h => h2 (by simpa using h)
    simp only [Runtime.onError, Runtime.onError', h3, h4, and_false, if_false]
    rw [show Runtime.retrieveErrorHandler { rt with traceBuff := b } e.Code = rt.retrieveErrorHandler e.Code from rfl]
    cases rt.retrieveErrorHandler e.Code <;> rfl
  rw [this, hr]

/-- The server of one program. -/
def only {ρ : Type} (E : Setup σ ρ) : Setup σ (Runtime Act) := { F := E.F, P := E.P, maxAlloc := E.maxAlloc, router := Router.impl E.F .panic }

theorem bared_headers (r : Request) (hs : Storage) (hp : hs.pairs = r.Headers.pairs) : bared { r with Headers := hs } = bared r := by
  unfold bared
  simp only [hp]

/-- A history whose events are requests, but for the buffers. -/
theorem forget_requests : ∀ (past : List Event) (rs : List Request), past.map Event.forget = (rs.map Event.request).map Event.forget →
    ∃ past' : List Request, past = past'.map Event.request ∧ past'.map bared = rs.map bared
  | [], [], _ => ⟨[], rfl, rfl⟩
  | [], r :: rs, h => by simp at h
  | e :: past, [], h => by simp at h
  | e :: past, r :: rs, h => by
    simp only [List.map_cons, List.cons.injEq] at h
    obtain ⟨past', h1, h2⟩ := forget_requests past rs h.2
    cases e with
    | error req err => simp [Event.forget] at h
    | request req =>
      refine ⟨req :: past', by rw [h1]; rfl, ?_⟩
      rw [List.map_cons, List.map_cons, h2]
      have := h.1
      simp only [Event.forget, Event.request.injEq] at this
      unfold bared
      rw [this]

theorem plain_seen {r : Request} {vops : List (Virtual.Op Tenant)} (h : PlainSeen r) (registered : ∀ e ∈ hostsRegistered vops, ∀ c ∈ e.1, HostChar c) : Plain r vops :=
  ⟨h.1, h.2, registered⟩

theorem plain_heard {ρ : Type} {E : Setup σ ρ} {maxTokens remote post before history} {vops : List (Virtual.Op Tenant)} (heard : HeardBefore E maxTokens remote post before history)
    (plain : ∀ s ∈ before, PlainHead s.head) (registered : ∀ e ∈ hostsRegistered vops, ∀ c ∈ e.1, HostChar c) : PlainHistory (history.map Event.request) vops := by
  intro e he
  obtain ⟨r, hr, rfl⟩ := List.mem_map.1 he
  obtain ⟨j, hj⟩ := List.getElem?_of_mem hr
  have hlt : j < before.length := by rw [← heard.1]; exact (List.getElem?_eq_some_iff.1 hj).1
  obtain ⟨env, after, world, del⟩ := heard.2 j before[j] r (List.getElem?_eq_getElem hlt) hj
  exact plain_delivered del (plain _ (List.getElem_mem hlt)) registered

theorem hosts_carried {F : Fold} {T : Nat} {h : Head} {seen : Request} (c : Carries F T h seen) : hostsOf seen = hostsSent h := by
  unfold hostsOf hostsSent
  rw [c.headers]
  induction h.fields with
  | nil => rfl
  | cons f fs ih =>
    rw [List.filter_cons]
    by_cases hl : f.isLength = true
    · have hn : (lower f.name == b!"host") = false := by
        have : lower f.name = b!"content-length" := by simpa [Field.isLength, Field.named] using hl
        rw [this]; decide
      simp only [hl, Bool.not_true, Bool.false_eq_true, if_false, List.filter_cons, hn]
      exact ih
    · simp only [hl, Bool.not_false, if_true, List.map_cons, List.filter_cons]
      by_cases hn : (lower f.name == b!"host") = true
      · simp only [hn, if_true, List.map_cons]; rw [ih]
      · simp only [hn, if_false, Bool.false_eq_true]; exact ih

theorem plain_carried {F : Fold} {T : Nat} {h : Head} {seen : Request} (c : Carries F T h seen) (hp : PlainHead h) : PlainSeen seen := by
  refine ⟨?_, by rw [hosts_carried c]; exact hp.2⟩
  intro p hp'
  rw [c.headers] at hp'
  obtain ⟨f, hf, rfl⟩ := List.mem_map.1 hp'
  exact hp.1 f (List.mem_filter.1 hf).1

/-- A reply which says what the virtual router answered is the one which is due. -/
theorem met_at {E : Setup σ (Virtual.Runtime (Runtime Act))} (router : E.router = Virtual.impl E.F (V E)) {vops : List (Virtual.Op Tenant)}
    (tenants : ∀ t, Registered vops t → TenantAny E text t) (registered : ∀ e ∈ hostsRegistered vops, ∀ c ∈ e.1, HostChar c) {look : Tenant → Lookup}
    {can : Tenant → Request → Prop} (beh : ∀ t, Registered vops t → Behaves E.F text t.ops t.router (look t) (can t)) {seen : Request}
    (hcan : ∀ t, Registered vops t → ∀ hs, can t { seen with Headers := hs })
    {defaults : List (Bytes × Bytes)} {history : List Request} (plainBefore : PlainHistory (history.map Event.request) vops) (plain : PlainSeen seen)
    {world : BC σ} {f : Fields} {req : Request} {left : Act.World σ}
    (ans : Answers E (routerAfter E (Virtual.initRouter Tenant.router (Virtual.build vops)) history) seen world (some (f, req), left)) {meth : Method} (hmeth : seen.Method = meth) {m : Msg}
    (hver : versionName (answeredIn seen) = some m.version) (hcode : m.code = f.Code)
    (hbody : m.rest = (if meth = .HEAD then [] else sentBody f)) (hfields : SaysFields defaults f m.fields) :
    MetAt E text vops look defaults history (hostsOf seen) seen meth m := by
  have key := dispatches E vops (history.map .request) seen (plain_seen plain registered)
  unfold Answers at ans
  rw [virtual_after router, router] at ans
  unfold MetAt
  cases ha : answerer vops (hostsOf seen) with
  | refusal code =>
    rw [ha] at key
    obtain ⟨hs, -, h1, -⟩ := key
    rw [h1] at ans
    cases ans
    refine ⟨hver, hcode, ?_, hfields⟩
    rw [hbody]
    split <;> rfl
  | tenant t =>
    rw [ha] at key
    obtain ⟨past, ⟨hs, hp, h1, -⟩, hpast⟩ := key
    have ht := answerer_tenant ha
    obtain ⟨env, made⟩ := (tenants t ht).made
    have hpast := hpast plainBefore
    rw [List.filter_map] at hpast
    obtain ⟨past', rfl, hb⟩ := forget_requests past _ hpast
    refine ⟨past', { seen with Headers := hs }, bared_headers seen hs hp, hb, ?_⟩
    refine served_by (E := only E) (rt := t.router) rfl made (beh t ht) (hcan t ht hs) (tenants t ht).mutators (world := world) (f := f) (req := req) (left := left) ?_ hmeth hver hcode hbody hfields
    unfold Answers
    rw [h1] at ans
    have e : routerAfter (only E) t.router past' = after (V E) t.router (past'.map .request) := by
      rw [routerAfter, Spec.Virtual.after, List.foldl_map]
      rfl
    rw [e]
    exact ans

set_option linter.unusedVariables false in
/-- **C99**, for any client: several programs are registered for hosts with the virtual router, one perhaps as the default one; their routes may be any texts. Their handlers answer with responses which say how long they are, whatever request they are called with by their router, and the error handlers
do so when they are called because of a head which is refused; they do not hijack the connection, and leave some fields of the request alone. Whatever bytes a client sends, in whatever segmentation, which are well-formed requests and then anything: what comes back is a
sequence of answers, one for each of the first `k` of the requests, each being the answer of the program which the `Host` of this request is for, having seen the earlier requests of this connection for the same host and no others, or a refusal by the virtual router; and then what is due to what comes after the requests.
If this is a head with a fault, the error handler which answers is the one of the program which the `Host` read before the fault is for.
Only if the k-th request does not keep the connection open, the requests after it and what comes after them are not answered. (Missing: hosts and names of headers with other characters than letters, digits, `-`, `.` and `:`; and as in `C101_every_client_partial`.) -/
theorem C99_any_client_partial (E : Setup σ (Virtual.Runtime (Runtime Act))) (dec : DecodesChunked E.P)
    (router : E.router = Virtual.impl E.F (Router.impl E.F .panic)) (cfg : Config)
    (size : cfg.bodyMaxSize < 2 ^ 64) (defaults : DefaultsOK E.F (cfg.defaultHeaders.getD []))
    (framing : ∀ d ∈ cfg.defaultHeaders.getD [], framingFields [d] = []) (enc : EncToken) (remote : Bytes)
    (vops : List (Virtual.Op Tenant)) (tenants : ∀ t, Registered vops t → TenantAny E text t) (plainHosts : ∀ e ∈ hostsRegistered vops, ∀ c ∈ e.1, HostChar c) :
    ∃ look : Tenant → Lookup, (∀ t, Registered vops t → Looks t.ops (look t)) ∧ ∀
      (answers : ∀ t, Registered vops t → ∀ seen h r (world : Act.World σ), world.hijacked = false → ¬ Echoed t.ops (look t) (arriving t.ops seen) →
        Chosen E.F text t.ops (look t) (arriving t.ops seen) h r →
        ∃ f r' left, (h r).run E.P E.maxAlloc world = (some (f, r'), left) ∧ Readable (cfg.defaultHeaders.getD []) (answeredIn seen) f)
      (errors : ∀ t, Registered vops t → ∀ e ∈ headErrors, ∀ h r (world : Act.World σ), handlerFor E.F text t.ops e.Code = some h → world.hijacked = false →
        ∃ f r' left, (h (failing r (.http e))).run E.P E.maxAlloc world = (some (f, r'), left) ∧ Readable (cfg.defaultHeaders.getD []) r.Proto f)
      (buffer : cfg.responseBuffSize < 16 ^ 8) (cl : Client) (quiet : Quiet cl) (writes : NoWriteError cl) (post : List (Bytes × Option GoErr)) (over : Over post)
      (ss : List Sending) (tail : Bytes) (kind : Kind) (stream : cl.stream = ss.flatMap Sending.bytes ++ tail)
      (ok : ∀ s ∈ ss, SendableWith E.F cfg s ∧ PlainHead s.head)
      (of : kind.Of E.F (headLimits cfg) cfg.maxEncodingTokens.toNat cfg.bodyMaxSize.toNat tail)
      (okLast : ∀ h path given, kind = .last h path given ∨ kind = .garbled h path given → PlainHead h),
      ∃ k frames1 frames2 msgs,
        (serve E (newConn E.P cfg enc remote (Virtual.initRouter Tenant.router (Virtual.build vops)) (followedBy cl post))).1.client.written = cl.written ++ frames1 ++ frames2 ∧
        k ≤ ss.length ∧ msgs.length = k ∧
        (∀ ms more l, readAnswers ms more = some l →
          readAnswers ((ss.take k).map (fun s => s.head.method) ++ ms) (frames1.flatten ++ more) = some (msgs ++ l)) ∧
        (∀ i : Nat, ∀ (s : Sending) (a : Option Msg × Msg), ss[i]? = some s → msgs[i]? = some a →
          ∃ history e after seen world, HeardBefore E cfg.maxEncodingTokens.toNat remote post (ss.take i) history ∧
            Delivered E cfg.maxEncodingTokens.toNat remote post e s after seen world ∧ Interim (cfg.defaultHeaders.getD []) history seen a.1 ∧
            MetAt E text vops look (cfg.defaultHeaders.getD []) history (hostsSent s.head) seen s.head.method a.2) ∧
        ((frames2 = [] ∧ ∃ s, 0 < k ∧ ss[k - 1]? = some s ∧ ¬ LeavesOpen s.head) ∨
         (k = ss.length ∧ kind.GetsAt E text vops look (cfg.defaultHeaders.getD []) ss (headLimits cfg) cfg.maxEncodingTokens.toNat remote tail post frames2.flatten)) := by
  classical
  have each : ∀ t, ∃ L, Registered vops t → Looks t.ops L ∧ Behaves E.F text t.ops t.router L (fun seen => ¬ (HasVariables t.ops ∧ (arriving t.ops seen).Path = [])) := by
    intro t
    by_cases ht : Registered vops t
    · obtain ⟨env, made⟩ := (tenants t ht).made
      obtain ⟨L, hL, hb⟩ := behaves_any made
      exact ⟨L, fun _ => ⟨hL, hb⟩⟩
    · exact ⟨.static (m := Act) [], fun h => absurd h ht⟩
  obtain ⟨look, hlook⟩ := Classical.axiomOfChoice (r := fun (t : Tenant) (L : Lookup) => Registered vops t → Looks t.ops L ∧ Behaves E.F text t.ops t.router L (fun seen => ¬ (HasVariables t.ops ∧ (arriving t.ops seen).Path = []))) each
  have beh := fun t ht => (hlook t ht).2
  refine ⟨look, fun t ht => (hlook t ht).1, ?_⟩
  intro answers errors buffer cl quiet writes post over ss tail kind stream ok of okLast
  have can : ∀ t, Registered vops t → ∀ seen : Request, seen.Path ≠ [] → ¬ (HasVariables t.ops ∧ (arriving t.ops seen).Path = []) :=
    fun t ht seen hne ⟨hv, he⟩ => (tenants t ht).paths hv seen hne (normalize_empty he)
  have arrives : ∀ t, Registered vops t → ∀ r, Untouched r (arriving t.ops r) := fun t ht r => ((tenants t ht).mutators r).normalised _
  have headers : ∀ (r : Request) hs, Untouched r { r with Headers := hs } := fun r hs => ⟨rfl, rfl, rfl, rfl, rfl, id⟩
  have tame : Tame E (Virtual.initRouter Tenant.router (Virtual.build vops)) := by
    intro history req w f req' hq hr
    have fin : ∀ r', Untouched req r' → (r'.Query.parsed = false → r'.Query.params.pairs = []) ∧ r'.Remote = req.Remote ∧ r'.Proto = req.Proto :=
      fun r' h => ⟨h.query hq, h.remote, h.proto⟩
    rw [virtual_after router, router] at hr
    rcases served_any E.F (V E) Tenant.router vops (history.map .request) req with ⟨code, -, hs, hp, h1, -⟩ | ⟨t, past, ht, hs, hp, h1, -⟩
    · rw [h1] at hr
      cases hr
      exact fin _ (headers req hs)
    · rw [h1] at hr
      have T := tenants t ht
      obtain ⟨env, made⟩ := T.made
      obtain ⟨b, hb⟩ := history_buff made .panic past
      rw [hb] at hr
      simp only [V, Router.impl] at hr
      rcases request_known made (C41_always_one E.F text t.ops) b { req with Headers := hs } with ⟨h, r, hk, hp, h1⟩ | ⟨-, f', r, b', hp, h1⟩ | ⟨-, -, h1⟩
      · rw [h1, Option.getD_some] at hr
        exact fin _ (((headers req hs).trans ((arrives t ht _).passed hp)).trans ((program_good T.polite hk).request r w f req' hr))
      · rw [h1] at hr
        cases hr
        exact fin _ ((headers req hs).trans ((arrives t ht _).passed hp))
      · rw [h1] at hr
        cases hr
  have serves : ∀ (history : List Request) (seen : Request) (world : BC σ), seen.Path ≠ [] →
      ∃ f req' left, Answers E (routerAfter E (Virtual.initRouter Tenant.router (Virtual.build vops)) history) seen world (some (f, req'), left) ∧
        left.hijacked = false ∧ Readable (cfg.defaultHeaders.getD []) (answeredIn seen) f ∧ Untouched seen req' := by
    intro history seen world hne
    unfold Answers
    rw [virtual_after router, router]
    rcases served_any E.F (V E) Tenant.router vops (history.map .request) seen with ⟨code, hc, hs, hp, h1, -⟩ | ⟨t, past, ht, hs, hp, h1, -⟩
    · rw [h1]
      exact ⟨_, _, _, rfl, rfl, refusal_readable _ framing _ hc, headers seen hs⟩
    · obtain ⟨env, made⟩ := (tenants t ht).made
      obtain ⟨b, hb⟩ := history_buff made .panic past
      rw [h1, hb]
      obtain ⟨f, req', left, g1, g2, g3, g4⟩ := tenant_serves framing (seen := { seen with Headers := hs }) (beh t ht)
        (can t ht { seen with Headers := hs } hne) (tenants t ht).mutators (tenants t ht).polite (answers t ht _) b world
      exact ⟨f, req', left, g1, g2, g3, (headers seen hs).trans g4⟩
  have answering : AnsweringIn answeredIn E (fun s => SendableWith E.F cfg s ∧ PlainHead s.head) cfg.maxEncodingTokens.toNat (cfg.defaultHeaders.getD [])
      (Virtual.initRouter Tenant.router (Virtual.build vops)) := by
    refine ⟨?_, ?_⟩
    · intro history remote post e s after seen world hok del
      obtain ⟨f, req', left, h1, h2, h3, h4⟩ := serves history seen world (by rw [del.path]; exact unescapes_ne hok.1.path hok.1.ok.target.1)
      exact ⟨f, req', left, h1, h2, h3, h4.method, h4.connection, h4.upgrade⟩
    · intro history req e world hw
      rw [virtual_after router, router]
      rcases served_any E.F (V E) Tenant.router vops (history.map .request) req with ⟨code, -, hs, hp, -, h1⟩ | ⟨t, past, ht, hs, hp, -, h1⟩
      · rw [h1 e]; exact hw
      · rw [h1 e]
        have T := tenants t ht
        obtain ⟨env, made⟩ := T.made
        obtain ⟨b, hb⟩ := history_buff made .panic past
        rw [hb]
        simp only [V, Router.impl, Runtime.onError]
        rcases error_known (built E.F text env t.ops t.router made) (C41_always_one E.F text t.ops) b
          (Runtime.runMutators { t.router with traceBuff := b } { req with Headers := hs }) e with ⟨h, r, hk, -, h1⟩ | ⟨-, -, f, b', h1⟩ | ⟨-, h1⟩
        · rw [h1, (program_good T.polite hk).hijacked r world]; exact hw
        · rw [h1]; exact hw
        · rw [h1]; exact hw
  have cutting : AnsweringCut E (fun h path => PlainHead h ∧ path ≠ []) (headLimits cfg) cfg.maxEncodingTokens.toNat cfg.bodyMaxSize.toNat
      (cfg.defaultHeaders.getD []) (Virtual.initRouter Tenant.router (Virtual.build vops)) := by
    intro history remote post env h path given seen world hok _ _ ann
    obtain ⟨f, req', left, h1, h2, h3, h4⟩ := serves history seen world (by rw [ann.path]; exact hok.2)
    exact ⟨f, req', left, h1, h2, h3, h4.method⟩
  have excusing : ∀ e ∈ headErrors, Excusing E (cfg.defaultHeaders.getD []) e (Virtual.initRouter Tenant.router (Virtual.build vops)) := by
    intro e he history req world hw
    obtain ⟨n1, n2⟩ := headErrors_other e he
    rw [virtual_after router, router]
    rcases served_any E.F (V E) Tenant.router vops (history.map .request) req with ⟨code, hc, hs, hp, -, h1⟩ | ⟨t, past, ht, hs, hp, -, h1⟩
    · rw [h1 _]
      exact ⟨_, _, _, rfl, hw, refusal_readable _ framing _ hc, rfl, rfl⟩
    · have T := tenants t ht
      obtain ⟨env, made⟩ := T.made
      obtain ⟨b, hb⟩ := history_buff made .panic past
      rw [h1 _, hb]
      obtain ⟨h, hh, hr⟩ := tenant_excuses made b { req with Headers := hs } e n1 n2
      obtain ⟨f, r', left, g1, g2⟩ := errors t ht e he h (mutated t.ops { req with Headers := hs }) world hh hw
      have hg := program_good T.polite (handlerFor_known hh)
      have hu := hg.request _ world f r' (by rw [g1])
      refine ⟨f, r', left, by rw [hr]; exact g1, ?_, ?_, hu.method.trans (T.mutators _).method, hu.proto.trans (T.mutators _).proto⟩
      · have := hg.hijacked (failing (mutated t.ops { req with Headers := hs }) (.http e)) world
        rw [g1] at this
        exact this.trans hw
      · have := (T.mutators { req with Headers := hs }).proto
        rw [this] at g2
        exact g2
  obtain ⟨k, frames1, frames2, msgs, h1, h2, h3, h4, h5, h6⟩ := C101_every_client_partial E dec cfg size defaults enc remote _ tame _ answering _ cutting excusing
    buffer cl quiet writes post over ss tail kind stream ok of (by
      intro h path given hk
      refine ⟨okLast h path given hk, ?_⟩
      rcases hk with rfl | rfl
      · exact unescapes_ne of.2.1.path of.2.1.ok.target.1
      · exact unescapes_ne of.2.1.path of.2.1.ok.target.1)
  refine ⟨k, frames1, frames2, msgs, h1, h2, h3, h4, ?_, ?_⟩
  · intro i s m hi hm
    obtain ⟨history, e, after, seen, world, f, req, left, heard, del, ans, hint, hver, hcode, hbody, hfields⟩ := h5 i s m hi hm
    have oks := ok s (List.mem_of_getElem? hi)
    refine ⟨history, e, after, seen, world, heard, del, hint, ?_⟩
    rw [← hosts_carried del.carries]
    exact met_at router tenants plainHosts beh (fun t ht hs => can t ht _ (by show seen.Path ≠ []; rw [del.path]; exact unescapes_ne oks.1.path oks.1.ok.target.1))
      (plain_heard heard (fun s hs => (ok s (List.mem_of_mem_take hs)).2) plainHosts) (plain_carried del.carries oks.2) ans del.carries.method hver hcode hbody hfields
  have refused : ∀ e ∈ headErrors, ∀ meth m, Refused E (Virtual.initRouter Tenant.router (Virtual.build vops)) (cfg.defaultHeaders.getD []) ss (headLimits cfg) cfg.maxEncodingTokens.toNat remote post tail meth e m →
      ∃ seen, AtFault E.F (headLimits cfg) cfg.maxEncodingTokens.toNat tail remote e seen ∧
        (PlainSeen seen → ExcusedAt E text vops (cfg.defaultHeaders.getD []) e seen meth m) := by
    intro e he meth m ⟨history, seen, f, req, left, heard, hat, ⟨world, hw, told⟩, hver, hcode, hbody, hfields⟩
    refine ⟨seen, hat, fun plain => ?_⟩
    obtain ⟨n1, n2⟩ := headErrors_other e he
    rw [virtual_after router, router] at told
    have key := dispatches E vops (history.map .request) seen (plain_seen plain plainHosts)
    unfold ExcusedAt
    cases ha : answerer vops (hostsOf seen) with
    | refusal code =>
      rw [ha] at key
      obtain ⟨hs, -, -, h1⟩ := key
      rw [h1 _] at told
      cases told
      refine ⟨hver, hcode, ?_, hfields⟩
      rw [hbody]
      split <;> rfl
    | tenant t =>
      rw [ha] at key
      obtain ⟨past, ⟨hs, hp, -, h1⟩, -⟩ := key
      have ht := answerer_tenant ha
      obtain ⟨env, made⟩ := (tenants t ht).made
      obtain ⟨b, hb⟩ := history_buff made .panic past
      obtain ⟨h, hh, hr⟩ := tenant_excuses made b { seen with Headers := hs } e n1 n2
      rw [h1 _, hb, hr] at told
      exact ⟨h, { seen with Headers := hs }, bared_headers seen hs hp, hh, world, f, req, left, told, hver, hcode, hbody, hfields⟩
  refine h6.imp id (fun ⟨hk, h⟩ => ⟨hk, ?_⟩)
  cases kind with
  | unfinished => exact h
  | crashing => exact h
  | faulty e =>
    intro version meth named
    obtain ⟨m, hm, hr⟩ := h version meth named
    obtain ⟨seen, hd, g⟩ := refused e (fault_errors of.2.2) meth m hr
    exact ⟨m, seen, hm, hd, g⟩
  | tooLong =>
    obtain ⟨e, he, h⟩ := h
    refine ⟨e, he, fun long meth named => ?_⟩
    obtain ⟨m, hm, hr⟩ := h long meth named
    obtain ⟨seen, hd, g⟩ := refused e (by clear h hr long; revert e; decide) meth m hr
    exact ⟨m, seen, hm, hd, g⟩
  | last hd path given =>
    obtain ⟨m, hm, history, env, seen, world, f, req, left, heard, ann, ans, hint, hver, hcode, hbody, hfields⟩ := h
    refine ⟨m, history, env, seen, world, hm, heard, ann, hint, ?_⟩
    rw [← hosts_carried ann.carries]
    exact met_at router tenants plainHosts beh (fun t ht hs => can t ht _ (by show seen.Path ≠ []; rw [ann.path]; exact unescapes_ne of.2.1.path of.2.1.ok.target.1))
      (plain_heard heard (fun s hs => (ok s hs).2) plainHosts) (plain_carried ann.carries (okLast _ _ _ (.inl rfl))) ans ann.carries.method hver hcode hbody hfields
  | garbled hd path given =>
    obtain ⟨m, bytes, hm, history, env, seen, world, f, req, left, heard, ann, ans, hint, hver, hcode, hbody, hfields⟩ := h
    refine ⟨m, bytes, history, env, seen, world, hm, heard, ann, hint, ?_⟩
    rw [← hosts_carried ann.carries]
    exact met_at router tenants plainHosts beh (fun t ht hs => can t ht _ (by show seen.Path ≠ []; rw [ann.path]; exact unescapes_ne of.2.1.path of.2.1.ok.target.1))
      (plain_heard heard (fun s hs => (ok s hs).2) plainHosts) (plain_carried ann.carries (okLast _ _ _ (.inr rfl))) ans ann.carries.method hver hcode hbody hfields
  | outside => trivial

/-! ### The hypotheses are met -/

/-- A program which answers GET requests for `/` with its name, and errors with another one. -/
def inn (name excuse : Bytes) : List (Op Act) :=
  [.route 0 .GET b!"/" (fun r => pure (Fields.new.bytes name, r)) [], .routeError 0 (fun r => pure (Fields.new.bytes excuse, r)) [404, 405, 400]]

private theorem inn_made (x y : Bytes) : (make Fold.ascii (fun _ => []) sampleEnv (inn x y)).isSome = true := rfl

/-- The same with its router. -/
def innTenant (x y : Bytes) : Tenant where
  ops := inn x y
  router := (make Fold.ascii (fun _ => []) sampleEnv (inn x y)).get (inn_made x y)
  lookup := .static (inn x y)

/-- Two of them, for two hosts. -/
def village : List (Virtual.Op Tenant) :=
  [.host b!"a.com" (innTenant b!"A" b!"not A"), .host b!"b.org" (innTenant b!"B" b!"not B")]

theorem inn_errors (x y : Bytes) : errorHandlers (Spec.Router.defaults streetSetup.F (fun _ => [])) (inn x y) = [(0, defaultAllErrorsHandler (fun _ => [])),
    (405, defaultMethodNotAllowedHandler Fold.ascii (fun _ => [])), (404, fun r => pure (Fields.new.bytes y, r)), (405, fun r => pure (Fields.new.bytes y, r)),
    (400, fun r => pure (Fields.new.bytes y, r))] := rfl

theorem inn_declared (x y : Bytes) : declared (inn x y) = [((b!"/", .GET), fun r => pure (Fields.new.bytes x, r))] := rfl

theorem inn_ok (x y : Bytes) : TenantAny streetSetup (fun _ => []) (innTenant x y) where
  made := ⟨sampleEnv, by simp [innTenant, streetSetup]⟩
  mutators r := ⟨rfl, rfl, rfl, rfl, rfl, id⟩
  paths _ r h := h
  polite := by
    refine ⟨?_, (fun c (hc : c ∈ []) => (List.not_mem_nil hc).elim), ?_⟩
    · intro d hd
      have hd : d ∈ declared (inn x y) := hd
      rw [inn_declared] at hd
      cases List.mem_singleton.1 hd
      exact polite_pure _ _ (fun r => ⟨_, rfl⟩)
    · intro e he
      have he : e ∈ errorHandlers (Spec.Router.defaults streetSetup.F (fun _ => [])) (inn x y) := he
      rw [inn_errors] at he
      simp only [List.mem_cons, List.not_mem_nil, or_false] at he
      rcases he with rfl | rfl | rfl | rfl | rfl <;> exact polite_pure _ _ (fun r => ⟨_, rfl⟩)

/-- A request with this method for `/` at this host. -/
def calling (m : Method) (host : Bytes) : Sending where
  head := { method := m, target := b!"/", query := none, version := b!"HTTP/1.1", crlf := true, fields := [⟨b!"Host", 1, host, true⟩], lastCrlf := true }
  path := b!"/"
  body := []
  coded := []

/-- The requests of the example. -/
def calls : List (Method × Bytes) := [(.TRACE, b!"a.com"), (.TRACE, b!"B.org"), (.POST, b!"a.com"), (.TRACE, b!"A.com")]

theorem calling_ok (c : Method × Bytes) (h : c ∈ calls) :
    SendableWith Fold.ascii Config.default (calling c.1 c.2) ∧ PlainHead (calling c.1 c.2).head := by
  have fields : ∀ f ∈ (calling c.1 c.2).head.fields, f.OK := by
    intro f hf
    have : ∀ c ∈ calls, 10 ∉ c.2 ∧ c.2.head? ≠ some 32 := by decide
    obtain ⟨h1, h2⟩ := this c h
    cases List.mem_singleton.1 hf
    exact ⟨by simp, by simp, h1, h2, by simp, fun h => absurd h (show ¬ (lower b!"Host" == b!"content-length") = true by decide)⟩
  simp only [calls, List.mem_cons, List.not_mem_nil, or_false] at h
  rcases h with rfl | rfl | rfl | rfl
  all_goals
    exact ⟨⟨⟨by decide, by decide, by simp [calling], ⟨⟨_, 46, .inr (.inl ⟨rfl, rfl⟩)⟩, by decide, by decide⟩, fields⟩,
      by unfold Head.CleanNames; decide, by unfold Head.NoBareEmpty; decide,
      ⟨by decide +kernel, by decide +kernel, by decide +kernel, by decide +kernel, by decide +kernel⟩, pct_lit (by decide),
      .sized (by decide +kernel) rfl (by decide), by decide +kernel⟩,
      by unfold HostChar; decide +kernel, by unfold HostChar; decide +kernel⟩

/-- A head for the second host, with a fault after the line which says so. -/
def strayed : Bytes := b!"GET / HTTP/1.1\r\nHost: b.org\r\nContent-Length: x\r\nHost: a.com\r\n\r\n"

theorem strayed_fits : RequestLineFits (headLimits Config.default).line strayed ∧ CleanStream strayed := by
  have e1 : strayed = b!"GET" ++ 32 :: (b!"/ HTTP/1.1\r" ++ 10 :: b!"Host: b.org\r\nContent-Length: x\r\nHost: a.com\r\n\r\n") := rfl
  have key : ∀ m line rest : Bytes, strayed = m ++ 32 :: (line ++ 10 :: rest) → 32 ∉ m → 10 ∉ line →
      m = b!"GET" ∧ line = b!"/ HTTP/1.1\r" ∧ rest = b!"Host: b.org\r\nContent-Length: x\r\nHost: a.com\r\n\r\n" := by
    intro m line rest e h1 h2
    obtain ⟨a1, a2⟩ := Parser.cut_unique (e.symm.trans e1) h1 (by decide)
    obtain ⟨a3, a4⟩ := Parser.cut_unique a2 h2 (by decide)
    exact ⟨a1, a3, a4⟩
  refine ⟨⟨by decide +kernel, ?_, ?_⟩, ?_⟩
  · intro m line e h1 h2
    obtain ⟨_, a2⟩ := Parser.cut_unique (e.symm.trans e1) h1 (by decide)
    rw [a2] at h2; exact absurd h2 (by decide)
  · intro m line rest e h1 h2
    obtain ⟨rfl, rfl, _⟩ := key m line rest e h1 h2
    decide +kernel
  · intro m line rest e h1 h2
    obtain ⟨_, _, rfl⟩ := key m line rest e h1 h2
    exact .field b!"Host" b!" b.org\r" _ (by decide) (by decide) (by decide) (by decide)
      (.field b!"Content-Length" b!" x\r" _ (by decide) (by decide) (by decide) (by decide)
        (.field b!"Host" b!" a.com\r" _ (by decide) (by decide) (by decide) (by decide) (.endCR _)))

theorem strayed_fault : HeadFault (headLimits Config.default) strayed Status.ErrBadRequest :=
  .fields { bare with query := none, version := b!"HTTP/1.1" } _ _
    ⟨by decide, by decide, (by intro q h; cases h), ⟨⟨_, 46, .inr (.inl ⟨rfl, rfl⟩)⟩, by decide, by decide⟩, by simp [bare]⟩ bare_escapable (by decide +kernel)
    (.next ⟨b!"Host", 1, b!"b.org", true⟩ _ _ ⟨by decide, by decide, by decide, by decide, by decide, by decide⟩ (by decide)
      (by decide) (by decide +kernel) (by decide +kernel) (by decide +kernel)
      (.length b!"Content-Length" b!" " 120 b!"\r\nHost: a.com\r\n\r\n" (by decide) (by decide) (by decide) (by decide +kernel)
        (by decide +kernel) (by decide) (by decide) (by decide) (by decide) (by decide) (by decide)))

/-- The two programs meet what is asked of programs. -/
theorem village_ok : (∀ t, Registered village t → TenantAny streetSetup (fun _ => []) t) ∧ (∀ e ∈ hostsRegistered village, ∀ c ∈ e.1, HostChar c) ∧
    (∀ t, Registered village t → ∀ L seen h r (world : Act.World CS), Chosen streetSetup.F (fun _ => []) t.ops L (arriving t.ops seen) h r →
      ∃ f r' left, (h r).run streetSetup.P streetSetup.maxAlloc world = (some (f, r'), left) ∧ Readable (Config.default.defaultHeaders.getD []) (answeredIn seen) f) ∧
    (∀ t, Registered village t → ∀ e ∈ headErrors, ∀ h r (world : Act.World CS), handlerFor streetSetup.F (fun _ => []) t.ops e.Code = some h →
      ∃ f r' left, (h (failing r (.http e))).run streetSetup.P streetSetup.maxAlloc world = (some (f, r'), left) ∧ Readable (Config.default.defaultHeaders.getD []) r.Proto f) := by
  have all : ∀ t, Registered village t → ∃ x y, t = innTenant x y := by
    intro t ht
    rcases ht with ht | ht
    · have : hostsRegistered village = [(b!"a.com", innTenant b!"A" b!"not A"), (b!"b.org", innTenant b!"B" b!"not B")] := by
        simp [hostsRegistered, village, show ¬ IsAny b!"a.com" by decide, show ¬ IsAny b!"b.org" by decide]
      rw [this] at ht
      simp only [List.map_cons, List.map_nil, List.mem_cons, List.not_mem_nil, or_false] at ht
      rcases ht with rfl | rfl <;> exact ⟨_, _, rfl⟩
    · have : defaultsRegistered village = [] := by
        simp [defaultsRegistered, village, show ¬ IsAny b!"a.com" by decide, show ¬ IsAny b!"b.org" by decide]
      rw [this] at ht
      cases ht
  have handlers : ∀ x y, ∀ c ∈ [404, 405, 400], handlerFor streetSetup.F (fun _ => []) (inn x y) c = some (fun r => pure (Fields.new.bytes y, r)) := by
    intro x y c hc
    simp only [List.mem_cons, List.not_mem_nil, or_false] at hc
    rcases hc with rfl | rfl | rfl <;> rfl
  refine ⟨?_, by unfold HostChar; decide +kernel, ?_, ?_⟩
  · intro t ht
    obtain ⟨x, y, rfl⟩ := all t ht
    exact inn_ok x y
  · intro t ht L seen h r world hc
    obtain ⟨x, y, rfl⟩ := all t ht
    have : ∃ x, h = fun r => pure (Fields.new.bytes x, r) := by
      cases hc with
      | route _ _ h' =>
        have h' : _ ∈ declared (inn x y) := h'
        rw [inn_declared] at h'
        exact ⟨x, congrArg Prod.snd (List.mem_singleton.1 h')⟩
      | head _ _ _ _ h' =>
        have h' : _ ∈ declared (inn x y) := h'
        rw [inn_declared] at h'
        exact ⟨x, congrArg Prod.snd (List.mem_singleton.1 h')⟩
      | notAllowed _ _ _ _ h' =>
        have := handlers x y 405 (by simp)
        rw [show (Status.MethodNotAllowed : Status.Code) = 405 from rfl, show (innTenant x y).ops = inn x y from rfl, this] at h'
        cases h'
        exact ⟨_, rfl⟩
      | caught _ _ h' => cases h'
      | notFound _ _ _ h' =>
        have := handlers x y 404 (by simp)
        rw [show (Status.NotFound : Status.Code) = 404 from rfl, show (innTenant x y).ops = inn x y from rfl, this] at h'
        cases h'
        exact ⟨_, rfl⟩
    obtain ⟨x, rfl⟩ := this
    exact ⟨_, _, _, rfl, report_plain _ _⟩
  · intro t ht e he h r world hh
    obtain ⟨x, y, rfl⟩ := all t ht
    have key : ∀ e ∈ headErrors, handlerFor streetSetup.F (fun _ => []) (inn x y) e.Code = some (defaultAllErrorsHandler (fun _ => [])) ∨
        handlerFor streetSetup.F (fun _ => []) (inn x y) e.Code = some (fun r => pure (Fields.new.bytes y, r)) := by
      intro e he
      simp only [headErrors, List.mem_cons, List.not_mem_nil, or_false] at he
      rcases he with rfl | rfl | rfl | rfl | rfl | rfl | rfl | rfl <;> first | exact .inl rfl | exact .inr rfl
    rw [show (innTenant x y).ops = inn x y from rfl] at hh
    rcases key e he with h1 | h1
    · rw [h1] at hh
      cases hh
      exact ⟨_, _, _, rfl, default_readable _ e he⟩
    · rw [h1] at hh
      cases hh
      exact ⟨_, _, _, rfl, report_plain _ _⟩

/-- C99 for any client: the hypotheses are met by these two programs; four requests for both of them, three of them with TRACE, and a head with a fault. Of the two TRACE requests for the first host the second one is answered with the texts of both; the fault is answered by the second program. -/
example : (∀ t, Registered village t → TenantAny streetSetup (fun _ => []) t) ∧ (∀ e ∈ hostsRegistered village, ∀ c ∈ e.1, HostChar c) ∧
    (∀ t, Registered village t → ∀ L seen h r (world : Act.World CS), Chosen streetSetup.F (fun _ => []) t.ops L (arriving t.ops seen) h r →
      ∃ f r' left, (h r).run streetSetup.P streetSetup.maxAlloc world = (some (f, r'), left) ∧ Readable (Config.default.defaultHeaders.getD []) (answeredIn seen) f) ∧
    (∀ t, Registered village t → ∀ e ∈ headErrors, ∀ h r (world : Act.World CS), handlerFor streetSetup.F (fun _ => []) t.ops e.Code = some h →
      ∃ f r' left, (h (failing r (.http e))).run streetSetup.P streetSetup.maxAlloc world = (some (f, r'), left) ∧ Readable (Config.default.defaultHeaders.getD []) r.Proto f) ∧
    (∀ c ∈ calls, SendableWith streetSetup.F Config.default (calling c.1 c.2) ∧ PlainHead (calling c.1 c.2).head) ∧
    (Kind.faulty Status.ErrBadRequest).Of streetSetup.F (headLimits Config.default) Config.default.maxEncodingTokens.toNat Config.default.bodyMaxSize.toNat strayed ∧
    ∃ cl : Client, Quiet cl ∧ NoWriteError cl ∧ cl.stream = (calls.map (fun c => calling c.1 c.2)).flatMap Sending.bytes ++ strayed ∧
    (readAnswers [.TRACE, .TRACE, .POST, .TRACE, .GET]
      (serve streetSetup (newConn streetSetup.P Config.default 1 b!"1.2.3.4" (Virtual.initRouter Tenant.router (Virtual.build village)) (followedBy cl []))).1.client.written.flatten).map
      (List.map (fun a => (a.2.code, a.2.rest))) =
      some [(200, b!"TRACE / HTTP/1.1\r\nHost: a.com\r\nContent-Length: 0\r\n\r\n"), (200, b!"TRACE / HTTP/1.1\r\nHost: B.org\r\nContent-Length: 0\r\n\r\n"), (200, b!"not A"),
        (200, b!"TRACE / HTTP/1.1\r\nHost: a.com\r\nContent-Length: 0\r\n\r\nTRACE / HTTP/1.1\r\nHost: A.com\r\nContent-Length: 0\r\n\r\n"), (200, b!"not B")] := by
  refine ⟨village_ok.1, village_ok.2.1, village_ok.2.2.1, village_ok.2.2.2, calling_ok, ⟨strayed_fits.1, strayed_fits.2, strayed_fault⟩,
    arrive [((calls.map (fun c => calling c.1 c.2)).flatMap Sending.bytes ++ strayed).take 50, ((calls.map (fun c => calling c.1 c.2)).flatMap Sending.bytes ++ strayed).drop 50],
    by unfold Quiet; decide +kernel, by simp [NoWriteError, arrive], by decide +kernel, by decide +kernel⟩

end Indigo.Props
