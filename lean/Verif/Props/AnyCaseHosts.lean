/-
C114 for programs behind virtual hosts: the letter case of the names of headers makes no difference.
-/
import Verif.Props.AnyCase
import Verif.Props.SameHosts
import Verif.Props.HeadHosts

namespace Indigo.Props
open Indigo.Serve Indigo.Spec Indigo.Router Indigo.Spec.Router Indigo.Spec.Virtual
variable {σ : Type} {text : GoErr → Bytes}

/-- What is asked of a program besides: the letter case of names of headers makes no difference to its handlers, and to what its mutators do but for the case of those names itself. -/
structure TenantBlind {σ ρ : Type} (E : Setup σ ρ) (text : GoErr → Bytes) (t : Tenant) : Prop where
  mutators : ∀ r r', folded r = folded r' → folded (mutated t.ops r) = folded (mutated t.ops r')
  blind : AllHandlers E.F text t.ops (CaseBlind E)

/-- A program in a state of its own answers requests which differ in the letter case of names of headers alike. -/
theorem program_case {E : Setup σ ρ} {t : Tenant} (T : TenantSame E text t) (B : TenantBlind E text t) {seen seen' : Request} {w w' : Act.World σ} {body : Bytes}
    (path : seen.Path ≠ []) (untraced : seen.Method ≠ .TRACE) (alike : folded seen = folded seen') (holds : Holds E w body) (holds' : Holds E w' body) :
    ∃ f q q' left left', ((Router.impl (m := Act) E.F .panic).onRequest t.router seen).1.run E.P E.maxAlloc w = (some (f, q), left) ∧
      ((Router.impl (m := Act) E.F .panic).onRequest t.router seen').1.run E.P E.maxAlloc w' = (some (f, q'), left') := by
  obtain ⟨env, made⟩ := T.made
  obtain ⟨h, ra, rb, hk, hf, k1, k2⟩ := request_case made (C41_always_one E.F text t.ops) B.mutators t.router.traceBuff seen seen' alike
    (fun h => untraced ((T.mutators seen).method.symm.trans h)) (fun he => T.paths seen path (normalize_empty he))
  have k1 : Runtime.onRequest E.F t.router seen = some (h ra, t.router) := k1
  obtain ⟨f, q, q', l, l', b1, b2⟩ := program_good B.blind hk ra rb _ _ _ hf holds holds'
  simp only [Router.impl, k1]
  rcases k2 with ⟨h', rc, rd, hk', hc, hrb, k2⟩ | ⟨f', x', y', hrb, k2⟩
  · have k2 : Runtime.onRequest E.F t.router seen' = some (h' rd, t.router) := k2
    simp only [k2]
    obtain ⟨f₂, _, y, _, m, c1, c2⟩ := program_good T.determined hk' rc rd _ _ _ hc holds' holds'
    rw [← hrb, b2] at c1
    cases c1
    exact ⟨f, q, y, l, m, b1, c2⟩
  · have k2 : Runtime.onRequest E.F t.router seen' = some (pure (f', y'), t.router) := k2
    simp only [k2]
    rw [hrb] at b2
    have b3 := congrArg Prod.fst b2
    simp only [pure, Act.run, Option.some.injEq, Prod.mk.injEq] at b3
    refine ⟨f, q, y', l, w', b1, ?_⟩
    rw [← b3.1]
    rfl

theorem hosts_folded {r r' : Request} (h : folded r = folded r') : hostsOf r = hostsOf r' := by
  have key : ∀ r : Request, hostsOf r = ((r.Headers.pairs.map (fun p => (lower p.Key, p.Value))).filter (fun p => p.1 == b!"host")).map Prod.snd := by
    intro r
    unfold hostsOf
    rw [List.filter_map, List.map_map]
    rfl
  rw [key, key, (folded_iff.1 h).2]

theorem folded_storage {r : Request} {hs : Storage} (hp : hs.pairs = r.Headers.pairs) : folded { r with Headers := hs } = folded r := by
  simp only [folded, contents, hp]

/-- Programs behind virtual hosts answer requests which differ in the letter case of names of headers alike. -/
theorem virtual_case {E : Setup σ (Virtual.Runtime (Runtime Act))} (router : E.router = Virtual.impl E.F (V E)) {vops : List (Virtual.Op Tenant)}
    (tenants : ∀ t, Registered vops t → TenantSame E text t ∧ TenantBlind E text t) (registered : ∀ e ∈ hostsRegistered vops, ∀ c ∈ e.1, HostChar c)
    {history history' : List Request} {seen seen' : Request} {world world' : BC σ} {body : Bytes} (alike : folded seen = folded seen')
    (plain : PlainSeen seen) (plain' : PlainSeen seen') (plainBefore : PlainHistory (history.map Event.request) vops) (plainBefore' : PlainHistory (history'.map Event.request) vops)
    (path : seen.Path ≠ []) (untraced : seen.Method ≠ .TRACE) (holds : Holds E ⟨world.1, world.2, false⟩ body) (holds' : Holds E ⟨world'.1, world'.2, false⟩ body)
    (pasts : ∀ r ∈ history, r.Path ≠ [] ∧ r.Method ≠ .TRACE) (pasts' : ∀ r ∈ history', r.Path ≠ [] ∧ r.Method ≠ .TRACE) :
    ∃ f req req' left left', Answers E (routerAfter E (Virtual.initRouter Tenant.router (Virtual.build vops)) history) seen world (some (f, req), left) ∧
      Answers E (routerAfter E (Virtual.initRouter Tenant.router (Virtual.build vops)) history') seen' world' (some (f, req'), left') := by
  have hh : hostsOf seen' = hostsOf seen := (hosts_folded alike).symm
  have key := dispatches E vops (history.map .request) seen (plain_seen plain registered)
  have key' := dispatches E vops (history'.map .request) seen' (plain_seen plain' registered)
  rw [hh] at key'
  unfold Answers
  rw [virtual_after router, virtual_after router, router]
  cases ha : answerer vops (hostsOf seen) with
  | refusal code =>
    rw [ha] at key key'
    obtain ⟨hs, -, h1, -⟩ := key
    obtain ⟨hs', -, h1', -⟩ := key'
    rw [h1, h1']
    exact ⟨_, _, _, _, _, rfl, rfl⟩
  | tenant t =>
    rw [ha] at key key'
    obtain ⟨past, ⟨hs, hp, h1, -⟩, hpast⟩ := key
    obtain ⟨past', ⟨hs', hp', h1', -⟩, hpast'⟩ := key'
    have ht := answerer_tenant ha
    obtain ⟨T, B⟩ := tenants t ht
    obtain ⟨env, made⟩ := T.made
    have states : ∀ (past : List Event) (history : List Request) (r : Request), (∀ x ∈ history, x.Path ≠ [] ∧ x.Method ≠ .TRACE) →
        past.map Event.forget = ((history.map Event.request).filter (fun e => target vops e.req = target vops r)).map Event.forget → after (V E) t.router past = t.router := by
      intro past history r hall hpast
      rw [List.filter_map] at hpast
      obtain ⟨l, rfl, hl⟩ := forget_requests past _ hpast
      refine tenant_untraced made T.mutators T.paths l ?_
      intro x hx
      have hx' : bared x ∈ (history.filter ((fun e : Event => decide (target vops e.req = target vops r)) ∘ Event.request)).map bared := by rw [← hl]; exact List.mem_map_of_mem hx
      obtain ⟨y, hy, he⟩ := List.mem_map.1 hx'
      have := hall y (List.mem_filter.1 hy).1
      rw [show x.Path = y.Path from (congrArg Request.Path he.symm :), show x.Method = y.Method from (congrArg Request.Method he.symm :)]
      exact this
    rw [h1, h1', states past history seen pasts (hpast plainBefore), states past' history' seen' pasts' (hpast' plainBefore')]
    exact program_case T B (seen := { seen with Headers := hs }) (seen' := { seen' with Headers := hs' }) path untraced
      ((folded_storage hp).trans (alike.trans (folded_storage hp').symm)) holds holds'

/-- **C114**, for several programs behind virtual hosts (`TenantSame` and `TenantBlind` say what is asked of them). Two clients send well-formed requests, for whichever hosts, none of them TRACE, which say the same but for the letter case of the names of headers (`Host` among them), written and
cut into pieces in different ways; there are only letters, digits, `-`, `.` and `:` in the names of headers and in hosts; writing to the clients has the same results. Then the server writes the same bytes to both, and serving ends in the same way. -/
theorem C114_hosts (E : Setup σ (Virtual.Runtime (Runtime Act))) (dec : DecodesChunked E.P) (router : E.router = Virtual.impl E.F (Router.impl E.F .panic)) (cfg : Config)
    (size : cfg.bodyMaxSize < 2 ^ 64) (alloc : cfg.bodyMaxSize.toNat ≤ E.maxAlloc) (large : E.maxAlloc < 2 ^ 63) (enc : EncToken) (remote : Bytes)
    (vops : List (Virtual.Op Tenant)) (tenants : ∀ t, Registered vops t → TenantSame E text t ∧ TenantBlind E text t) (plainHosts : ∀ e ∈ hostsRegistered vops, ∀ c ∈ e.1, HostChar c)
    (spellings : List (Sending × Sending))
    (ok : ∀ x ∈ spellings, (SendableWith E.F cfg x.1 ∧ PlainHead x.1.head) ∧ (SendableWith E.F cfg x.2 ∧ PlainHead x.2.head) ∧ AlikeSaid x.1 x.2) (untraced : ∀ x ∈ spellings, x.1.head.method ≠ .TRACE)
    (cl₁ cl₂ : Client) (quiet₁ : Quiet cl₁) (quiet₂ : Quiet cl₂) (writes : cl₁.wscript = cl₂.wscript)
    (post₁ post₂ : List (Bytes × Option GoErr)) (silent₁ : Silent post₁) (silent₂ : Silent post₂)
    (stream₁ : cl₁.stream = spellings.flatMap (fun x => x.1.bytes)) (stream₂ : cl₂.stream = spellings.flatMap (fun x => x.2.bytes)) :
    ∃ frames why,
      (serve E (newConn E.P cfg enc remote (Virtual.initRouter Tenant.router (Virtual.build vops)) (followedBy cl₁ post₁))).1.client.written = cl₁.written ++ frames ∧
      (serve E (newConn E.P cfg enc remote (Virtual.initRouter Tenant.router (Virtual.build vops)) (followedBy cl₂ post₂))).1.client.written = cl₂.written ++ frames ∧
      (serve E (newConn E.P cfg enc remote (Virtual.initRouter Tenant.router (Virtual.build vops)) (followedBy cl₁ post₁))).2 = some why ∧
      (serve E (newConn E.P cfg enc remote (Virtual.initRouter Tenant.router (Virtual.build vops)) (followedBy cl₂ post₂))).2 = some why := by
  have tenants' : ∀ t, Registered vops t → TenantSame E text t := fun t ht => (tenants t ht).1
  obtain ⟨reply, rep0⟩ := hosts_repeatable (cfg := cfg) router alloc large enc remote vops tenants' plainHosts
  have rep := repeatable_mono (good' := fun s => SendableWith E.F cfg s ∧ (PlainHead s.head ∧ s.head.method ≠ .TRACE)) (fun s hs => ⟨hs.1, hs.2.1⟩) rep0
  have path : ∀ {s : Sending} {post env after seen world}, SendableWith E.F cfg s → Delivered E cfg.maxEncodingTokens.toNat remote post env s after seen world → seen.Path ≠ [] :=
    fun hs del => by rw [del.path]; exact unescapes_ne hs.path hs.ok.target.1
  have plainBefore : ∀ {post before history}, HeardSo E (fun s => SendableWith E.F cfg s ∧ (PlainHead s.head ∧ s.head.method ≠ .TRACE)) cfg.maxEncodingTokens.toNat enc remote post before history →
      PlainHistory (history.map Event.request) vops := by
    intro post before history heard e he
    obtain ⟨r, hr, rfl⟩ := List.mem_map.1 he
    exact heard_all heard (P := fun r => Plain r vops) (fun _ _ _ _ _ hg del => plain_delivered del hg.2.1 plainHosts) r hr
  have pasts : ∀ {post before history}, HeardSo E (fun s => SendableWith E.F cfg s ∧ (PlainHead s.head ∧ s.head.method ≠ .TRACE)) cfg.maxEncodingTokens.toNat enc remote post before history →
      ∀ r ∈ history, r.Path ≠ [] ∧ r.Method ≠ .TRACE :=
    fun heard => heard_all heard (P := fun r => r.Path ≠ [] ∧ r.Method ≠ .TRACE) (fun _ _ _ _ _ hg del => ⟨path hg.1 del, by rw [del.carries.method]; exact hg.2.2⟩)
  have good : ∀ x ∈ spellings, (SendableWith E.F cfg x.1 ∧ (PlainHead x.1.head ∧ x.1.head.method ≠ .TRACE)) ∧ (SendableWith E.F cfg x.2 ∧ (PlainHead x.2.head ∧ x.2.head.method ≠ .TRACE)) ∧ AlikeSaid x.1 x.2 :=
    fun x hx => ⟨⟨(ok x hx).1.1, (ok x hx).1.2, untraced x hx⟩, ⟨(ok x hx).2.1.1, (ok x hx).2.1.2, by rw [← (ok x hx).2.2.method]; exact untraced x hx⟩, (ok x hx).2.2⟩
  refine alike_answers E dec cfg size enc remote _ (virtual_tame router tenants') reply (fun s => PlainHead s.head ∧ s.head.method ≠ .TRACE) rep spellings good ?_
    cl₁ cl₂ quiet₁ quiet₂ writes post₁ post₂ silent₁ silent₂ stream₁ stream₂
  intro done x rest hw post₁ history₁ after₁ seen₁ world₁ post₂ history₂ after₂ seen₂ world₂ heard₁ del₁ heard₂ del₂
  obtain ⟨hs₁, hs₂, alike⟩ := good x (by rw [hw]; simp)
  have henv : environment enc (done.map Prod.snd) = environment enc (done.map Prod.fst) := by cases done <;> rfl
  obtain ⟨q, left, a1, -⟩ := rep.request _ _ _ _ _ _ _ heard₁ hs₁ del₁
  obtain ⟨q', left', a2, -⟩ := rep.request _ _ _ _ _ _ _ heard₂ hs₂ (henv ▸ del₂)
  have holds₂ := delivered_holds alloc large hs₂.1 del₂
  rw [← alike.body] at holds₂
  obtain ⟨f, _, _, _, _, b1, b2⟩ := virtual_case router tenants plainHosts (delivered_alike alike hs₂.1.path del₁ del₂) (plain_carried del₁.carries hs₁.2.1) (plain_carried del₂.carries hs₂.2.1)
    (plainBefore heard₁) (plainBefore heard₂) (path hs₁.1 del₁) (by rw [del₁.carries.method]; exact hs₁.2.2) (delivered_holds alloc large hs₁.1 del₁) holds₂ (pasts heard₁) (pasts heard₂)
  unfold Answers at a1 a2 b1 b2
  have e1 := (congrArg Prod.fst a1).symm.trans (congrArg Prod.fst b1)
  have e2 := (congrArg Prod.fst a2).symm.trans (congrArg Prod.fst b2)
  simp only [Option.some.injEq, Prod.mk.injEq] at e1 e2
  exact e1.1.trans e2.1.symm

/-! ### The hypotheses are met -/

theorem village_blind (t : Tenant) (ht : Registered village t) : TenantBlind streetSetup (fun _ => []) t := by
  obtain ⟨x, y, rfl⟩ : ∃ x y, t = innTenant x y := village_inn t ht
  refine ⟨fun r r' h => h, ?_, (fun c (hc : c ∈ []) => (List.not_mem_nil hc).elim), ?_⟩
  · intro d hd
    have hd : d ∈ declared (inn x y) := hd
    rw [inn_declared] at hd
    cases List.mem_singleton.1 hd
    exact caseBlind_pure _ _ (fun _ => Fields.new.bytes x) (fun r => rfl) (fun _ _ _ => rfl)
  · intro e he
    have he : e ∈ errorHandlers (Spec.Router.defaults streetSetup.F (fun _ => [])) (inn x y) := he
    rw [inn_errors] at he
    simp only [List.mem_cons, List.not_mem_nil, or_false] at he
    have henv : ∀ {r r' : Request}, folded r = folded r' → r.Env = r'.Env := fun h => (congrArg Request.Env h :)
    rcases he with rfl | rfl | rfl | rfl | rfl
    · exact caseBlind_pure _ _ (fun r => Fields.new.error (fun _ => []) r.Env.Error []) (fun r => rfl) (fun r r' h => by rw [henv h])
    · exact caseBlind_pure _ _ (fun r => ((Fields.new.error (fun _ => []) (some (.http Status.ErrMethodNotAllowed)) []).header Fold.ascii b!"Allow" [r.Env.AllowedMethods]).getD
        (Fields.new.error (fun _ => []) (some (.http Status.ErrMethodNotAllowed)) [])) (fun r => rfl) (fun r r' h => by rw [henv h])
    all_goals exact caseBlind_pure _ _ (fun _ => Fields.new.bytes y) (fun r => rfl) (fun _ _ _ => rfl)

/-- A visit with `HOST` in capitals. -/
def visitingLoud (host : Bytes) : Sending where
  head := { method := .GET, target := b!"/", query := none, version := b!"HTTP/1.1", crlf := true, fields := [⟨b!"HOST", 1, host, true⟩], lastCrlf := true }
  path := b!"/"
  body := []
  coded := []

/-- Visits of two hosts, each in two ways. -/
def loudVisits : List (Sending × Sending) := [(visiting [b!"b.org"], visitingLoud b!"b.org"), (visiting [b!"A.com"], visitingLoud b!"A.com")]

theorem loudVisits_ok : ∀ x ∈ loudVisits, (SendableWith Fold.ascii Config.default x.1 ∧ PlainHead x.1.head) ∧ (SendableWith Fold.ascii Config.default x.2 ∧ PlainHead x.2.head) ∧ AlikeSaid x.1 x.2 := by
  have loud : ∀ host ∈ [b!"b.org", b!"A.com"], (visitingLoud host).head.OK := by
    intro host hh
    have : ∀ v ∈ [b!"b.org", b!"A.com"], 10 ∉ v ∧ v.head? ≠ some 32 ∧ v.getLast? ≠ some 13 := by decide
    obtain ⟨h1, h2, h3⟩ := this host hh
    refine ⟨by simp [visitingLoud], by simp [visitingLoud], by simp [visitingLoud], ⟨⟨_, 46, .inr (.inl ⟨rfl, rfl⟩)⟩, by simp [visitingLoud], by simp [visitingLoud]⟩, ?_⟩
    intro f hf
    cases List.mem_singleton.1 hf
    exact ⟨by simp, by simp, h1, h2, fun _ => h3, fun h => absurd h (show ¬ (lower b!"HOST" == b!"content-length") = true by decide)⟩
  intro x hx
  simp only [loudVisits, List.mem_cons, List.not_mem_nil, or_false] at hx
  rcases hx with rfl | rfl
  all_goals
    exact ⟨⟨(visiting_ok _ (by decide)).1, (visiting_ok _ (by decide)).2.1⟩,
      ⟨⟨loud _ (by decide), by unfold Head.CleanNames; decide, by unfold Head.NoBareEmpty; decide,
        ⟨by decide +kernel, by decide +kernel, by decide +kernel, by decide +kernel, by decide +kernel⟩, .lit (by decide) .nil, .sized (by decide +kernel) rfl (by decide), by decide +kernel⟩,
        by unfold HostChar; decide +kernel, by unfold HostChar; decide +kernel⟩,
      rfl, rfl, rfl, fun _ => Iff.rfl, by decide +kernel, by decide +kernel, rfl⟩

set_option maxRecDepth 200000 in
/-- C114 for virtual hosts: this is what is written to both clients. -/
example : (∀ t, Registered village t → TenantSame streetSetup (fun _ => []) t ∧ TenantBlind streetSetup (fun _ => []) t) ∧ (∀ e ∈ hostsRegistered village, ∀ c ∈ e.1, HostChar c) ∧
    (∀ x ∈ loudVisits, (SendableWith streetSetup.F Config.default x.1 ∧ PlainHead x.1.head) ∧ (SendableWith streetSetup.F Config.default x.2 ∧ PlainHead x.2.head) ∧ AlikeSaid x.1 x.2) ∧
    (∀ x ∈ loudVisits, x.1.head.method ≠ .TRACE) ∧
    ∃ cl₁ cl₂ : Client, Quiet cl₁ ∧ Quiet cl₂ ∧ cl₁.wscript = cl₂.wscript ∧ cl₁.stream = loudVisits.flatMap (fun x => x.1.bytes) ∧
      cl₂.stream = loudVisits.flatMap (fun x => x.2.bytes) ∧ cl₁.stream ≠ cl₂.stream ∧
      (readAnswers [.GET, .GET]
        (serve streetSetup (newConn streetSetup.P Config.default 1 b!"1.2.3.4" (Virtual.initRouter Tenant.router (Virtual.build village)) (followedBy cl₂ []))).1.client.written.flatten).map
        (List.map (fun a => (a.2.code, a.2.rest))) = some [(200, b!"B"), (200, b!"A")] :=
  ⟨fun t ht => ⟨(village_same t ht).1, village_blind t ht⟩, village_ok.2.1, loudVisits_ok, by decide +kernel,
    arrive [loudVisits.flatMap (fun x => x.1.bytes)], arrive [(loudVisits.flatMap (fun x => x.2.bytes)).take 7, (loudVisits.flatMap (fun x => x.2.bytes)).drop 7],
    by unfold Quiet; decide +kernel, by unfold Quiet; decide +kernel, rfl, by decide +kernel, by decide +kernel, by decide +kernel, by decide +kernel⟩

end Indigo.Props
