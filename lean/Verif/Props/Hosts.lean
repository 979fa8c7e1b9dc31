/-
C99 Programs behind virtual hosts, end to end.
-/
import Verif.Spec.Hosts
import Verif.Props.Program
import Verif.Props.Virtual

namespace Indigo.Props
open Indigo.Serve Indigo.Spec Indigo.Router Indigo.Spec.Router Indigo.Spec.Virtual

/-- What is asked of a program: it could be made; its paths are without variables, or are written with templates; its mutators and handlers
leave alone what the server needs. -/
structure TenantOK {σ ρ : Type} (E : Setup σ ρ) (text : GoErr → Bytes) (env : Env Act) (good : Sending → Prop) (t : Tenant) : Prop where
  made : make E.F text env t.ops = some t.router
  lookup : (t.lookup = .static t.ops ∧ Static t.ops) ∨
    ∃ ts, t.lookup = .templates ts ∧ Templates t.ops ts ∧ (∀ s, good s → ∃ p, s.path = SLASH :: p) ∧
      ∀ r p, r.Path = SLASH :: p → ∃ p', (mutated t.ops r).Path = SLASH :: p'
  mutators : ∀ r, Untouched r (mutated t.ops r)
  polite : AllHandlers E.F text t.ops (Polite E)

section
variable {σ : Type} {text : GoErr → Bytes} {env : Env Act}

/-- All programs which were registered. -/
def Registered (vops : List (Virtual.Op Tenant)) (t : Tenant) : Prop :=
  t ∈ (hostsRegistered vops).map (·.2) ∨ t ∈ defaultsRegistered vops

/-- The routers behind the virtual one. -/
abbrev V (E : Setup σ (Virtual.Runtime (Runtime Act))) : RouterImpl Act (Runtime Act) := Router.impl E.F .panic

theorem virtual_after {E : Setup σ (Virtual.Runtime (Runtime Act))} (router : E.router = Virtual.impl E.F (V E))
    (vops : List (Virtual.Op Tenant)) (history : List Request) :
    routerAfter E (Virtual.initRouter Tenant.router (Virtual.build vops)) history =
      vrouter E.F (V E) Tenant.router vops (history.map .request) := by
  rw [routerAfter, vrouter, Spec.Virtual.after, List.foldl_map, router]
  rfl

theorem refusal_readable {defs : List (Bytes × Bytes)} (p : Proto) (framing : ∀ d ∈ defs, framingFields [d] = []) (c : Status.Code)
    (hc : c = 400 ∨ c = 421) : Readable defs p (Fields.new.code c) where
  clean := ⟨by simp [Fields.new, Fields.code], noBreak_html, noBreak_nil, by simp [Fields.new, Fields.code]⟩
  attachment _ h := by cases h
  framing := ⟨by simp [Fields.new, Fields.code], framing, rfl⟩
  final := by rcases hc with rfl | rfl <;> decide
  noBody _ := ⟨rfl, rfl⟩

private theorem orRefuse_code {vops : List (Virtual.Op Tenant)} {c code : Status.Code} (h : orRefuse vops c = .refusal code) : code = c := by
  unfold orRefuse at h
  split at h
  · cases h
  · cases h; rfl

theorem answerer_code {vops : List (Virtual.Op Tenant)} {hosts : List Bytes} {code : Status.Code}
    (h : answerer vops hosts = .refusal code) : code = 400 ∨ code = 421 := by
  unfold answerer at h
  split at h
  · exact .inl (orRefuse_code h)
  · split at h
    · cases h
    · exact .inr (orRefuse_code h)
  · cases h; exact .inl rfl

private theorem orRefuse_tenant {vops : List (Virtual.Op Tenant)} {c : Status.Code} {t : Tenant} (h : orRefuse vops c = .tenant t) :
    Registered vops t := by
  unfold orRefuse at h
  split at h
  · rename_i t' ht
    cases h
    exact .inr (List.mem_of_getLast? ht)
  · cases h

theorem answerer_tenant {vops : List (Virtual.Op Tenant)} {hosts : List Bytes} {t : Tenant}
    (h : answerer vops hosts = .tenant t) : Registered vops t := by
  unfold answerer at h
  split at h
  · exact orRefuse_tenant h
  · split at h
    · rename_i e he
      cases h
      exact .inl (List.mem_map_of_mem (List.mem_of_find?_eq_some he))
    · exact orRefuse_tenant h
  · cases h

/-- The virtual router does what the specification says. -/
theorem dispatches (E : Setup σ (Virtual.Runtime (Runtime Act))) (vops : List (Virtual.Op Tenant)) (history : List Event)
    (req : Request) (plain : Plain req vops) :
    match answerer vops (hostsOf req) with
    | .tenant t => ∃ past, ServedBy E.F (V E) (vrouter E.F (V E) Tenant.router vops history) req (after (V E) t.router past) ∧
        (PlainHistory history vops →
          past.map Event.forget = (history.filter (fun e => target vops e.req = target vops req)).map Event.forget)
    | .refusal code => RefusedWith E.F (V E) (vrouter E.F (V E) Tenant.router vops history) req code := by
  have default : ∀ code : Status.Code, target vops req = .default →
      (∀ t, (defaultsRegistered vops).getLast? = some t →
        ∃ past, ServedBy E.F (V E) (vrouter E.F (V E) Tenant.router vops history) req (Spec.Virtual.after (V E) t.router past) ∧
          (PlainHistory history vops →
            past.map Event.forget = (history.filter (fun e => target vops e.req = .default)).map Event.forget)) →
      ((defaultsRegistered vops).getLast? = none → RefusedWith E.F (V E) (vrouter E.F (V E) Tenant.router vops history) req code) →
      match orRefuse vops code with
      | .tenant t => ∃ past, ServedBy E.F (V E) (vrouter E.F (V E) Tenant.router vops history) req (Spec.Virtual.after (V E) t.router past) ∧
          (PlainHistory history vops →
            past.map Event.forget = (history.filter (fun e => target vops e.req = target vops req)).map Event.forget)
      | .refusal code => RefusedWith E.F (V E) (vrouter E.F (V E) Tenant.router vops history) req code := by
    intro code ht h1 h2
    rw [ht]
    unfold orRefuse
    cases hd : (defaultsRegistered vops).getLast? with
    | none => exact h2 hd
    | some t => exact h1 t hd
  match hh : hostsOf req with
  | [] =>
    have key := C44_missing E.F (V E) Tenant.router vops history req plain.names hh
    refine default _ (by unfold target; rw [hh]) (fun t ht => ?_) (fun hn => ?_)
    · rw [ht] at key
      exact key
    · rw [hn] at key
      exact key
  | [v] =>
    simp only [answerer]
    cases hf : (hostsRegistered vops).find? (fun e => lower (Spec.Virtual.bare e.1) == lower v) with
    | none =>
      have hne : ∀ e ∈ hostsRegistered vops, lower (Spec.Virtual.bare e.1) ≠ lower v := by
        intro e he
        have := List.find?_eq_none.1 hf e he
        simpa using this
      have key := C44_unknown_as_sent_partial E.F (V E) Tenant.router vops history req v plain hh hne
      refine default _ ?_ (fun t ht => ?_) (fun hn => ?_)
      · unfold target
        rw [hh]
        simp only
        rw [List.findIdx?_eq_none_iff.2 (fun e he => by simpa using hne e he)]
      · rw [ht] at key
        exact key
      · rw [hn] at key
        exact key
    | some e =>
      obtain ⟨hsame, before, rest, hops, hfirst⟩ := List.find?_eq_some_iff_append.1 hf
      obtain ⟨past, h, hpast⟩ := C44_selected_as_sent_partial E.F (V E) Tenant.router vops history req v before rest e.1 e.2 plain hh hops
        (by simpa using hsame) (by intro e' he'; have := hfirst e' he'; simpa using this)
      have ht : target vops req = .router before.length := by
        unfold target
        rw [hh]
        simp only
        have : (hostsRegistered vops).findIdx? (fun e => lower (Spec.Virtual.bare e.1) == lower v) = some before.length := by
          rw [hops, List.findIdx?_append, List.findIdx?_eq_none_iff.2 (fun e' he' => by have := hfirst e' he'; simpa using this), List.findIdx?_cons, hsame]
          simp
        rw [this]
      rw [ht]
      exact ⟨past, h, hpast⟩
  | a :: b :: rest => exact C44_repeated E.F (V E) Tenant.router vops history req plain.names (by rw [hh]; simp)

/-- Other buffers for the headers make no difference. -/
theorem delivered_headers {E : Setup σ ρ} {maxTokens remote post e s after seen world}
    (del : Delivered E maxTokens remote post e s after seen world) (hs : Storage) (hp : hs.pairs = seen.Headers.pairs) :
    Delivered E maxTokens remote post e s after { seen with Headers := hs } world where
  carries := { del.carries with headers := hp.trans del.carries.headers }
  path := del.path
  params := del.params
  ctx := del.ctx
  env := del.env
  remote := del.remote
  hijacked := del.hijacked
  fresh := del.fresh
  body := del.body

theorem hosts_delivered {E : Setup σ ρ} {maxTokens remote post e s after seen world}
    (del : Delivered E maxTokens remote post e s after seen world) : hostsOf seen = hostsSent s.head := by
  unfold hostsOf hostsSent
  rw [del.carries.headers]
  induction s.head.fields with
  | nil => rfl
  | cons f fs ih =>
    rw [List.filter_cons]
    by_cases hl : f.isLength = true
    · have hn : (lower f.name == b!"host") = false := by
        have : lower f.name = b!"content-length" := by simpa [Field.isLength, Field.named] using hl
        rw [this]; decide
      simp only [hl, Bool.not_true, Bool.false_eq_true, if_false, List.filter_cons, hn]
      exact ih
    · simp only [hl, Bool.not_false, if_true, List.map_cons, List.filter_cons]
      by_cases hn : (lower f.name == b!"host") = true
      · simp only [hn, if_true, List.map_cons]; rw [ih]
      · simp only [hn, if_false, Bool.false_eq_true]; exact ih

theorem plain_delivered {E : Setup σ ρ} {maxTokens remote post e s after seen world} {vops : List (Virtual.Op Tenant)}
    (del : Delivered E maxTokens remote post e s after seen world) (hp : PlainHead s.head)
    (registered : ∀ e ∈ hostsRegistered vops, ∀ c ∈ e.1, HostChar c) : Plain seen vops where
  names := by
    intro p hp'
    rw [del.carries.headers] at hp'
    obtain ⟨f, hf, rfl⟩ := List.mem_map.1 hp'
    exact hp.1 f (List.mem_filter.1 hf).1
  hosts := by rw [hosts_delivered del]; exact hp.2
  registered := registered

/-- **C99.** Several programs, each made with a built-in router, are registered for hosts with the virtual router, one perhaps as the default one. A client
sends requests one after another on a connection, in any segmentation, without waiting; they are well-formed and within the limits, none has the method
TRACE, and each except perhaps the last one leaves the connection open. The handlers answer what `Chosen` says they are called with, with responses
which say how long they are; they do not hijack the connection, and leave some fields of the request alone. Then what comes back is one response for
each request, in order, and nothing else. The i-th one is the answer of the program which the `Host` of the i-th request is for, to what this request says and to the
body sent with it, whatever hosts the other requests on the same connection are for; or it is a refusal with an empty body: 400 without a `Host` (when there is no default program) or with several,
421 with a `Host` nobody is registered for. -/
theorem C99_hosts (E : Setup σ (Virtual.Runtime (Runtime Act))) (dec : DecodesChunked E.P)
    (router : E.router = Virtual.impl E.F (Router.impl E.F .panic)) (cfg : Config)
    (size : cfg.bodyMaxSize < 2 ^ 64) (defaults : DefaultsOK E.F (cfg.defaultHeaders.getD []))
    (framing : ∀ d ∈ cfg.defaultHeaders.getD [], framingFields [d] = []) (enc : EncToken) (remote : Bytes)
    (vops : List (Virtual.Op Tenant)) (good : Sending → Prop) (tenants : ∀ t, Registered vops t → TenantOK E text env good t)
    (plainHosts : ∀ e ∈ hostsRegistered vops, ∀ c ∈ e.1, HostChar c)
    (answers : ∀ t remote post e s after seen world h r, answerer vops (hostsSent s.head) = .tenant t → SendableWith E.F cfg s → good s →
      Delivered E cfg.maxEncodingTokens.toNat remote post e s after seen world → Chosen E.F text t.ops t.lookup (arriving t.ops seen) h r →
      ∃ f r' left, (h r).run E.P E.maxAlloc ⟨world.1, world.2, false⟩ = (some (f, r'), left) ∧
        Readable (cfg.defaultHeaders.getD []) seen.Proto f)
    (buffer : cfg.responseBuffSize < 16 ^ 8) (cl : Client) (quiet : Quiet cl) (writes : NoWriteError cl) (post : List (Bytes × Option GoErr)) (silent : Silent post)
    (ss : List Sending) (ok : ∀ s ∈ ss, SendableWith E.F cfg s ∧ s.head.method ≠ .TRACE ∧ PlainHead s.head ∧ good s)
    (stream : cl.stream = ss.flatMap Sending.bytes)
    (upgrade : ∀ s ∈ ss, s.head.last b!"upgrade" = none) (keep : ∀ s ∈ ss.dropLast, KeepsOpen s.head) :
    ∃ frames msgs,
      (serve E (newConn E.P cfg enc remote (Virtual.initRouter Tenant.router (Virtual.build vops)) (followedBy cl post))).1.client.written =
        cl.written ++ frames ∧
      readReplies (ss.map (fun s => s.head.method)) frames.flatten = some msgs ∧ msgs.length = ss.length ∧
      ∀ i : Nat, ∀ (s : Sending) (m : Msg), ss[i]? = some s → msgs[i]? = some m →
        (∃ p, IsVersion s.head.version p ∧ versionName p = some m.version) ∧
        match answerer vops (hostsSent s.head) with
        | .tenant t => ∃ e after seen world h r f r' left, Delivered E cfg.maxEncodingTokens.toNat remote post e s after seen world ∧
            Chosen E.F text t.ops t.lookup (arriving t.ops seen) h r ∧
            (h r).run E.P E.maxAlloc ⟨world.1, world.2, false⟩ = (some (f, r'), left) ∧
            m.code = f.Code ∧ m.rest = (if s.head.method = .HEAD then [] else sentBody f) ∧
            SaysFields (cfg.defaultHeaders.getD []) f m.fields
        | .refusal code => m.code = code ∧ m.rest = [] ∧ SaysFields (cfg.defaultHeaders.getD []) (Fields.new.code code) m.fields := by
  have arrives : ∀ t, Registered vops t → ∀ r, Untouched r (arriving t.ops r) := fun t ht r => ((tenants t ht).mutators r).normalised _
  have headers : ∀ (r : Request) hs, Untouched r { r with Headers := hs } := fun r hs => ⟨rfl, rfl, rfl, rfl, rfl, id⟩
  have tame : Tame E (Virtual.initRouter Tenant.router (Virtual.build vops)) := by
    intro history req w f req' hq hr
    have fin : ∀ r', Untouched req r' → (r'.Query.parsed = false → r'.Query.params.pairs = []) ∧ r'.Remote = req.Remote ∧ r'.Proto = req.Proto :=
      fun r' h => ⟨h.query hq, h.remote, h.proto⟩
    rw [virtual_after router, router] at hr
    rcases served_any E.F (V E) Tenant.router vops (history.map .request) req with ⟨code, -, hs, hp, h1, -⟩ | ⟨t, past, ht, hs, hp, h1, -⟩
    · rw [h1] at hr
      cases hr
      exact fin _ (headers req hs)
    · rw [h1] at hr
      have T := tenants t ht
      obtain ⟨b, hb⟩ := history_buff T.made .panic past
      rw [hb] at hr
      simp only [V, Router.impl] at hr
      rcases request_known T.made (C41_always_one E.F text t.ops) b { req with Headers := hs } with ⟨h, r, hk, hp, h1⟩ | ⟨-, f', r, b', hp, h1⟩ | ⟨-, -, h1⟩
      · rw [h1, Option.getD_some] at hr
        exact fin _ (((headers req hs).trans ((arrives t ht _).passed hp)).trans ((program_good T.polite hk).request r w f req' hr))
      · rw [h1] at hr
        cases hr
        exact fin _ ((headers req hs).trans ((arrives t ht _).passed hp))
      · rw [h1] at hr
        cases hr
  have does : ∀ (history : List Request) remote post e (s : Sending) after seen world, s.head.method ≠ .TRACE → PlainHead s.head → good s →
      Delivered E cfg.maxEncodingTokens.toNat remote post e s after seen world →
      match answerer vops (hostsSent s.head) with
      | .tenant t => ∃ hs h r, hs.pairs = seen.Headers.pairs ∧ Chosen E.F text t.ops t.lookup (arriving t.ops { seen with Headers := hs }) h r ∧
          (E.router.onRequest (routerAfter E (Virtual.initRouter Tenant.router (Virtual.build vops)) history) seen).1 = h r
      | .refusal code => ∃ hs, (E.router.onRequest (routerAfter E (Virtual.initRouter Tenant.router (Virtual.build vops)) history) seen).1 =
          pure (Fields.new.code code, { seen with Headers := hs }) := by
    intro history remote post e s after seen world hnt hplain hgood del
    have key := dispatches E vops (history.map .request) seen (plain_delivered del hplain plainHosts)
    rw [hosts_delivered del] at key
    rw [virtual_after router, router]
    cases ha : answerer vops (hostsSent s.head) with
    | refusal code =>
      rw [ha] at key
      obtain ⟨hs, -, h1, -⟩ := key
      exact ⟨hs, by rw [h1]⟩
    | tenant t =>
      rw [ha] at key
      obtain ⟨past, ⟨hs, hp, h1, -⟩, -⟩ := key
      have ht := answerer_tenant ha
      have T := tenants t ht
      obtain ⟨b, hb⟩ := history_buff T.made .panic past
      have hmeth : (arriving t.ops { seen with Headers := hs }).Method ≠ .TRACE := by
        rw [((headers seen hs).trans (arrives t ht _)).method, del.carries.method]; exact hnt
      obtain ⟨h, r, hc, hr⟩ := program_does (seen := { seen with Headers := hs }) T.made t.lookup (by
        rcases T.lookup with ⟨h1, hs⟩ | ⟨ts, h1, ht, hroot, hmut⟩
        · exact .inl ⟨h1, hs⟩
        · obtain ⟨p, hp⟩ := hroot s hgood
          exact .inr ⟨ts, h1, ht, hmut _ p (by show seen.Path = _; rw [del.path]; exact hp)⟩) b (fun h => hmeth h.1)
      refine ⟨hs, h, r, hp, hc, ?_⟩
      rw [h1, hb]
      simp only [V, Router.impl, hr]
      rfl
  have answering : Answering E (fun s => SendableWith E.F cfg s ∧ s.head.method ≠ .TRACE ∧ PlainHead s.head ∧ good s)
      cfg.maxEncodingTokens.toNat (cfg.defaultHeaders.getD []) (Virtual.initRouter Tenant.router (Virtual.build vops)) := by
    refine ⟨?_, ?_⟩
    · intro history remote post e s after seen world hok del
      have key := does history remote post e s after seen world hok.2.1 hok.2.2.1 hok.2.2.2 del
      cases ha : answerer vops (hostsSent s.head) with
      | refusal code =>
        rw [ha] at key
        obtain ⟨hs, hr⟩ := key
        refine ⟨Fields.new.code code, { seen with Headers := hs }, ⟨world.1, world.2, false⟩, ?_, rfl, ?_, rfl, rfl, rfl⟩
        · unfold Answers; rw [hr]; rfl
        · exact refusal_readable _ framing _ (answerer_code ha)
      | tenant t =>
        rw [ha] at key
        obtain ⟨hs, h, r, hp, hc, hr⟩ := key
        have ht := answerer_tenant ha
        have del' := delivered_headers del hs hp
        obtain ⟨f, r', left, h1, h2⟩ := answers t remote post e s after _ world h r ha hok.1 hok.2.2.2 del' hc
        have hg := program_good (tenants t ht).polite (chosen_known hc)
        have hu := (((headers seen hs).trans (arrives t ht _)).trans (chosen_untouched hc)).trans
          (hg.request r ⟨world.1, world.2, false⟩ f r' (by rw [h1]))
        refine ⟨f, r', left, by unfold Answers; rw [hr]; exact h1, ?_, h2, hu.method, hu.connection, hu.upgrade⟩
        have := hg.hijacked r ⟨world.1, world.2, false⟩
        rw [h1] at this
        exact this
    · intro history req e world hw
      rw [virtual_after router, router]
      rcases served_any E.F (V E) Tenant.router vops (history.map .request) req with ⟨code, -, hs, hp, -, h1⟩ | ⟨t, past, ht, hs, hp, -, h1⟩
      · rw [h1 e]; exact hw
      · rw [h1 e]
        have T := tenants t ht
        obtain ⟨b, hb⟩ := history_buff T.made .panic past
        rw [hb]
        simp only [V, Router.impl, Runtime.onError]
        rcases error_known (built E.F text env t.ops t.router T.made) (C41_always_one E.F text t.ops) b
          (Runtime.runMutators { t.router with traceBuff := b } { req with Headers := hs }) e with ⟨h, r, hk, -, h1⟩ | ⟨-, -, f, b', h1⟩ | ⟨-, h1⟩
        · rw [h1, (program_good T.polite hk).hijacked r world]; exact hw
        · rw [h1]; exact hw
        · rw [h1]; exact hw
  obtain ⟨frames, msgs, h1, h2, h3, h4⟩ := C71_replies_readable_for E dec cfg size defaults enc remote _ tame _ answering buffer cl quiet writes
    post silent ss ok stream upgrade keep
  refine ⟨frames, msgs, h1, h2, h3, ?_⟩
  intro i s m hi hm
  obtain ⟨history, e, after, seen, world, f, req, left, -, del, ans, hver, hcode, hbody, hfields⟩ := h4 i s m hi hm
  refine ⟨⟨_, del.carries.proto, hver⟩, ?_⟩
  have hok := (ok s (List.mem_of_getElem? hi)).2
  have key := does history remote post e s after seen world hok.1 hok.2.1 hok.2.2 del
  unfold Answers at ans
  cases ha : answerer vops (hostsSent s.head) with
  | refusal code =>
    rw [ha] at key
    obtain ⟨hs, hr⟩ := key
    rw [hr] at ans
    cases ans
    refine ⟨hcode, ?_, hfields⟩
    rw [hbody]
    split
    · rfl
    · rfl
  | tenant t =>
    rw [ha] at key
    obtain ⟨hs, h, r, hp, hc, hr⟩ := key
    rw [hr] at ans
    exact ⟨e, after, _, world, h, r, f, req, left, delivered_headers del hs hp, hc, ans, hcode, hbody, hfields⟩

/-! ### The hypotheses are met -/

/-- A program which answers everything with its name. -/
def house (name : Bytes) : List (Op Act) :=
  [.catch 0 b!"/" (fun r => pure (Fields.new.bytes name, r)) [], .routeError 0 (fun r => pure (Fields.new.bytes name, r)) [404]]

private theorem house_made (name : Bytes) : (make Fold.ascii (fun _ => []) sampleEnv (house name)).isSome = true := rfl

/-- The same with its router. -/
def houseTenant (name : Bytes) : Tenant where
  ops := house name
  router := (make Fold.ascii (fun _ => []) sampleEnv (house name)).get (house_made name)
  lookup := .static (house name)

/-- Two of them, for two hosts, the second one registered twice. -/
def street : List (Virtual.Op Tenant) :=
  [.host b!"a.com" (houseTenant b!"A"), .host b!"www.b.org:80" (houseTenant b!"B"), .host b!"b.org" (houseTenant b!"C")]

/-- Their server. -/
def streetSetup : Setup CS (Virtual.Runtime (Runtime Act)) :=
  { F := Fold.ascii, P := refParser, maxAlloc := 2 ^ 32, router := Virtual.impl Fold.ascii (Router.impl Fold.ascii .panic) }

/-- `GET / HTTP/1.1` with these hosts. -/
def visiting (hosts : List Bytes) : Sending where
  head := { method := .GET, target := b!"/", query := none, version := b!"HTTP/1.1", crlf := true,
            fields := hosts.map (fun h => ⟨b!"Host", 1, h, true⟩), lastCrlf := true }
  path := b!"/"
  body := []
  coded := []

/-- The visits of the example. -/
def visits : List (List Bytes) := [[b!"A.com"], [b!"b.org"], [b!"x"], [], [b!"a.com", b!"a.com"]]

theorem visiting_ok (hosts : List Bytes) (h : hosts ∈ visits) :
    SendableWith Fold.ascii Config.default (visiting hosts) ∧ PlainHead (visiting hosts).head ∧ KeepsOpen (visiting hosts).head := by
  have v' : ∀ p, IsVersion b!"HTTP/1.1" p → persists p [] = true := by
    rintro p ⟨sep, ⟨h, -⟩ | ⟨-, rfl⟩ | ⟨h, -⟩⟩
    · simp at h
    · decide
    · simp at h
  have fields : ∀ f ∈ (visiting hosts).head.fields, f.OK := by
    intro f hf
    obtain ⟨x, hx, rfl⟩ := List.mem_map.1 hf
    have : ∀ hosts ∈ visits, ∀ x ∈ hosts, 10 ∉ x ∧ x.head? ≠ some 32 := by decide
    obtain ⟨h1, h2⟩ := this hosts h x hx
    exact ⟨by simp, by simp, h1, h2, by simp, fun h => absurd h (show ¬ (lower b!"Host" == b!"content-length") = true by decide)⟩
  simp only [visits, List.mem_cons, List.not_mem_nil, or_false] at h
  rcases h with rfl | rfl | rfl | rfl | rfl
  all_goals
    exact ⟨⟨⟨by decide, by decide, by simp [visiting], ⟨⟨_, 46, .inr (.inl ⟨rfl, rfl⟩)⟩, by decide, by decide⟩, fields⟩,
      by unfold Head.CleanNames; decide, by unfold Head.NoBareEmpty; decide,
      ⟨by decide +kernel, by decide +kernel, by decide +kernel, by decide +kernel, by decide +kernel⟩, pct_lit (by decide),
      .sized (by decide +kernel) rfl (by decide), by decide +kernel⟩,
      ⟨by unfold HostChar; decide +kernel, by unfold HostChar; decide +kernel⟩, by decide +kernel, v', by decide +kernel⟩

private theorem house_ok (name : Bytes) : TenantOK streetSetup (fun _ => []) sampleEnv (fun _ => True) (houseTenant name) where
  made := by simp [houseTenant, streetSetup]
  lookup := .inl ⟨rfl, by intro d hd; cases hd⟩
  mutators r := ⟨rfl, rfl, rfl, rfl, rfl, id⟩
  polite := by
    refine ⟨fun d (hd : d ∈ []) => (List.not_mem_nil hd).elim, ?_, ?_⟩
    · intro c hc
      have : catchers (houseTenant name).ops = [(b!"/", fun r => pure (Fields.new.bytes name, r))] := rfl
      rw [this] at hc
      rw [List.mem_singleton.1 hc]
      exact polite_pure _ _ (fun r => ⟨_, rfl⟩)
    · intro e he
      have : errorHandlers (Spec.Router.defaults streetSetup.F (fun _ => [])) (houseTenant name).ops = [(0, defaultAllErrorsHandler (fun _ => [])),
        (405, defaultMethodNotAllowedHandler Fold.ascii (fun _ => [])), (404, fun r => pure (Fields.new.bytes name, r))] := rfl
      rw [this] at he
      simp only [List.mem_cons, List.not_mem_nil, or_false] at he
      rcases he with rfl | rfl | rfl <;> exact polite_pure _ _ (fun r => ⟨_, rfl⟩)

private theorem house_answers (name : Bytes) (r : Request) (world : Act.World CS) (h : Handler Act) (r' : Request)
    (hc : Chosen streetSetup.F (fun _ => []) (house name) (.static (house name)) r h r') :
    (h r').run streetSetup.P streetSetup.maxAlloc world = (some (Fields.new.bytes name, r'), world) := by
  cases hc with
  | route _ _ h => cases h
  | head _ _ _ _ h => cases h
  | notAllowed h => exact absurd rfl h.2.2
  | caught _ _ h =>
    have : catchers (house name) = [(b!"/", fun r => pure (Fields.new.bytes name, r))] := rfl
    rw [this] at h
    cases List.mem_singleton.1 h
    rfl
  | notFound _ _ _ h =>
    have : handlerFor streetSetup.F (fun _ => []) (house name) 404 = some (fun r => pure (Fields.new.bytes name, r)) := rfl
    rw [show (Status.NotFound : Status.Code) = 404 from rfl, this] at h
    cases h
    rfl

/-- C99: the hypotheses are met by these two programs and five requests on one connection, cut into two segments; and this is what the client
reads. -/
example : ∃ cl : Client, Quiet cl ∧ NoWriteError cl ∧ cl.stream = (visits.map visiting).flatMap Sending.bytes ∧
    (∀ hosts ∈ visits, SendableWith Fold.ascii Config.default (visiting hosts) ∧ PlainHead (visiting hosts).head ∧
      KeepsOpen (visiting hosts).head) ∧
    (∀ t, Registered street t → TenantOK streetSetup (fun _ => []) sampleEnv (fun _ => True) t) ∧
    (∀ e ∈ hostsRegistered street, ∀ c ∈ e.1, HostChar c) ∧
    (∀ t, Registered street t → ∀ r (world : Act.World CS) h r', Chosen streetSetup.F (fun _ => []) t.ops t.lookup r h r' →
      ∃ f, (h r').run streetSetup.P streetSetup.maxAlloc world = (some (f, r'), world) ∧ ∀ p, Readable (Config.default.defaultHeaders.getD []) p f) ∧
    (readReplies [.GET, .GET, .GET, .GET, .GET]
      (serve streetSetup (newConn streetSetup.P Config.default 1 b!"1.2.3.4" (Virtual.initRouter Tenant.router (Virtual.build street))
        (followedBy cl []))).1.client.written.flatten).map
      (List.map (fun m => (m.code, m.rest))) = some [(200, b!"A"), (200, b!"B"), (421, []), (400, []), (400, [])] := by
  have all : ∀ t, Registered street t → ∃ name, t = houseTenant name := by
    intro t ht
    rcases ht with ht | ht
    · have : hostsRegistered street = [(b!"a.com", houseTenant b!"A"), (b!"www.b.org:80", houseTenant b!"B"), (b!"b.org", houseTenant b!"C")] := by
        simp [hostsRegistered, street, show ¬ IsAny b!"a.com" by decide, show ¬ IsAny b!"www.b.org:80" by decide, show ¬ IsAny b!"b.org" by decide]
      rw [this] at ht
      simp only [List.map_cons, List.map_nil, List.mem_cons, List.not_mem_nil, or_false] at ht
      rcases ht with rfl | rfl | rfl <;> exact ⟨_, rfl⟩
    · have : defaultsRegistered street = [] := by
        simp [defaultsRegistered, street, show ¬ IsAny b!"a.com" by decide, show ¬ IsAny b!"www.b.org:80" by decide, show ¬ IsAny b!"b.org" by decide]
      rw [this] at ht
      cases ht
  refine ⟨arrive [((visits.map visiting).flatMap Sending.bytes).take 50, ((visits.map visiting).flatMap Sending.bytes).drop 50],
    ?_, by simp [NoWriteError, arrive], by decide +kernel, visiting_ok, ?_, ?_, ?_, by decide +kernel⟩
  · unfold Quiet; decide +kernel
  · intro t ht
    obtain ⟨name, rfl⟩ := all t ht
    exact house_ok name
  · unfold HostChar; decide +kernel
  · intro t ht r world h r' hc
    obtain ⟨name, rfl⟩ := all t ht
    exact ⟨_, house_answers name r world h r' hc, fun p => report_plain p _⟩

end
end Indigo.Props
