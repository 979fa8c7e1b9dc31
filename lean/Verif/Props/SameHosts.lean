/-
Requests cut into pieces in different ways, and on connections which have been used or not, for programs behind virtual hosts.
-/
import Verif.Props.ReuseProgram
import Verif.Props.EveryHost

namespace Indigo.Props
open Indigo.Serve Indigo.Spec Indigo.Router Indigo.Spec.Router Indigo.Spec.Virtual
variable {σ : Type} {text : GoErr → Bytes}

/-- What is asked of a program: it could be made; its handlers answer with functions of what the request says and of the whole body, do not hijack the connection and leave some fields of the request alone; what its mutators do depends on what the request
says only, and they leave alone the same fields and do not make paths empty; the error handler which is called when the connection is being closed does not panic. -/
structure TenantSame {σ ρ : Type} (E : Setup σ ρ) (text : GoErr → Bytes) (t : Tenant) : Prop where
  made : ∃ env, make E.F text env t.ops = some t.router
  mutators : ∀ r, Untouched r (mutated t.ops r)
  paths : ∀ r : Request, r.Path ≠ [] → (mutated t.ops r).Path ≠ []
  respect : ∀ r r', contents r = contents r' → contents (mutated t.ops r) = contents (mutated t.ops r')
  polite : AllHandlers E.F text t.ops (Polite E)
  determined : AllHandlers E.F text t.ops (Determined E)
  closing : ∀ h r (world : Act.World σ), handlerFor E.F text t.ops Status.ErrCloseConnection.Code = some h → world.hijacked = false →
    ((h (failing r closeError)).run E.P E.maxAlloc world).1.isSome

theorem contents_storage {r : Request} {hs : Storage} (hp : hs.pairs = r.Headers.pairs) : contents { r with Headers := hs } = contents r := by
  simp only [contents, hp]

theorem contents_bared (r : Request) : contents (bared r) = contents r := contents_storage rfl

theorem contents_of_bared {l l' : List Request} (h : l.map bared = l'.map bared) : l.map contents = l'.map contents := by
  have := congrArg (List.map contents) h
  simpa only [List.map_map, Function.comp_def, contents_bared] using this

theorem neighbours_contents (vops : List (Virtual.Op Tenant)) {history history' : List Request} {seen seen' : Request} (h : history.map contents = history'.map contents)
    (hs : contents seen = contents seen') : (neighbours vops history seen).map contents = (neighbours vops history' seen').map contents := by
  have key : ∀ (l : List Request) (r : Request), (neighbours vops l r).map contents = (l.map contents).filter (fun x => target vops x = target vops (contents r)) := by
    intro l r
    rw [List.filter_map]
    rfl
  rw [key, key, h, hs]

/-- The states of a program after requests which say the same are the same. -/
theorem tenant_after {F : Fold} {env : Env Act} {ops : List (Op Act)} {rt : Runtime Act} (made : make F text env ops = some rt)
    (respect : ∀ r r', contents r = contents r' → contents (mutated ops r) = contents (mutated ops r')) (paths : ∀ r : Request, r.Path ≠ [] → (mutated ops r).Path ≠ []) :
    ∀ (past past' : List Request) (b : Bytes), past.map contents = past'.map contents → (∀ r ∈ past, r.Path ≠ []) →
      ∃ b', after (Router.impl (m := Act) F .panic) { rt with traceBuff := b } (past.map .request) = { rt with traceBuff := b' } ∧
        after (Router.impl (m := Act) F .panic) { rt with traceBuff := b } (past'.map .request) = { rt with traceBuff := b' } := by
  intro past
  induction past with
  | nil =>
    intro past' b h _
    cases past' with
    | nil => exact ⟨b, rfl, rfl⟩
    | cons => simp at h
  | cons r past ih =>
    intro past' b h hne
    cases past' with
    | nil => simp at h
    | cons r' past' =>
      simp only [List.map_cons, List.cons.injEq] at h
      have hn : (arriving ops r).Path ≠ [] := fun he => paths r (hne r (by simp)) (normalize_empty he)
      obtain ⟨D, ⟨hd, -, hall⟩ | ⟨f, g, hall⟩⟩ := request_same made (C41_always_one F text ops) respect r hn
      · obtain ⟨x, h1, -⟩ := hall r b rfl
        obtain ⟨x', h2, -⟩ := hall r' b h.1.symm
        obtain ⟨b', g1, g2⟩ := ih past' b h.2 (fun r hr => hne r (by simp [hr]))
        refine ⟨b', ?_, ?_⟩
        · rw [List.map_cons, Spec.Virtual.after, List.foldl_cons, show next (Router.impl (m := Act) F .panic) { rt with traceBuff := b } (.request r) = { rt with traceBuff := b } by
            simp only [next, Router.impl, h1]; rfl]
          exact g1
        · rw [List.map_cons, Spec.Virtual.after, List.foldl_cons, show next (Router.impl (m := Act) F .panic) { rt with traceBuff := b } (.request r') = { rt with traceBuff := b } by
            simp only [next, Router.impl, h2]; rfl]
          exact g2
      · obtain ⟨x, h1, -⟩ := hall r b rfl
        obtain ⟨x', h2, -⟩ := hall r' b h.1.symm
        obtain ⟨b', g1, g2⟩ := ih past' (g b) h.2 (fun r hr => hne r (by simp [hr]))
        refine ⟨b', ?_, ?_⟩
        · rw [List.map_cons, Spec.Virtual.after, List.foldl_cons, show next (Router.impl (m := Act) F .panic) { rt with traceBuff := b } (.request r) = { rt with traceBuff := g b } by
            simp only [next, Router.impl, h1]; rfl]
          exact g1
        · rw [List.map_cons, Spec.Virtual.after, List.foldl_cons, show next (Router.impl (m := Act) F .panic) { rt with traceBuff := b } (.request r') = { rt with traceBuff := g b } by
            simp only [next, Router.impl, h2]; rfl]
          exact g2

/-- The state of a program after requests none of which is TRACE. -/
theorem tenant_untraced {F : Fold} {env : Env Act} {ops : List (Op Act)} {rt : Runtime Act} (made : make F text env ops = some rt)
    (mutators : ∀ r, Untouched r (mutated ops r)) (paths : ∀ r : Request, r.Path ≠ [] → (mutated ops r).Path ≠ []) :
    ∀ (past : List Request), (∀ r ∈ past, r.Path ≠ [] ∧ r.Method ≠ .TRACE) → after (Router.impl (m := Act) F .panic) rt (past.map .request) = rt := by
  intro past
  induction past with
  | nil => intro _; rfl
  | cons r past ih =>
    intro hall
    obtain ⟨h1, h2⟩ := hall r (by simp)
    rw [List.map_cons, Spec.Virtual.after, List.foldl_cons, show next (Router.impl (m := Act) F .panic) rt (.request r) = rt by
      rcases request_known made (C41_always_one F text ops) rt.traceBuff r with ⟨h, x, -, -, hr⟩ | ⟨h, -⟩ | ⟨h, -⟩
      · have hr : Runtime.onRequest F rt r = some (h x, rt) := hr
        simp only [next, Router.impl, hr]; rfl
      · exact absurd ((((mutators r).normalised _ : Untouched r (arriving ops r)).method).symm.trans h) h2
      · exact absurd (normalize_empty h) (paths r h1)]
    exact ih (fun r hr => hall r (by simp [hr]))

/-- Two requests which say the same, after histories which leave the programs in the same states, are answered in the same way. -/
theorem virtual_two {E : Setup σ (Virtual.Runtime (Runtime Act))} (router : E.router = Virtual.impl E.F (V E)) {vops : List (Virtual.Op Tenant)}
    (tenants : ∀ t, Registered vops t → TenantSame E text t) (registered : ∀ e ∈ hostsRegistered vops, ∀ c ∈ e.1, HostChar c)
    {history history' : List Request} {seen seen' : Request} {world world' : BC σ} {body : Bytes} (alike : contents seen = contents seen')
    (plain : PlainSeen seen) (plainBefore : PlainHistory (history.map Event.request) vops) (plainBefore' : PlainHistory (history'.map Event.request) vops)
    (path : seen.Path ≠ []) (holds : Holds E ⟨world.1, world.2, false⟩ body) (holds' : Holds E ⟨world'.1, world'.2, false⟩ body)
    (states : ∀ t (past past' : List Request), Registered vops t → past.map contents = (neighbours vops history seen).map contents → past'.map contents = (neighbours vops history' seen').map contents →
      ∃ b, after (V E) t.router (past.map .request) = { t.router with traceBuff := b } ∧ after (V E) t.router (past'.map .request) = { t.router with traceBuff := b }) :
    ∃ f req req' left left', Answers E (routerAfter E (Virtual.initRouter Tenant.router (Virtual.build vops)) history) seen world (some (f, req), left) ∧
      Answers E (routerAfter E (Virtual.initRouter Tenant.router (Virtual.build vops)) history') seen' world' (some (f, req'), left') := by
  have hh : hostsOf seen' = hostsOf seen := (congrArg hostsOf alike.symm :)
  have hpairs : seen'.Headers.pairs = seen.Headers.pairs := (congrArg (fun r : Request => r.Headers.pairs) alike.symm :)
  have plain' : PlainSeen seen' := ⟨by rw [hpairs]; exact plain.1, by rw [hh]; exact plain.2⟩
  have key := dispatches E vops (history.map .request) seen (plain_seen plain registered)
  have key' := dispatches E vops (history'.map .request) seen' (plain_seen plain' registered)
  rw [hh] at key'
  unfold Answers
  rw [virtual_after router, virtual_after router, router]
  cases ha : answerer vops (hostsOf seen) with
  | refusal code =>
    rw [ha] at key key'
    obtain ⟨hs, -, h1, -⟩ := key
    obtain ⟨hs', -, h1', -⟩ := key'
    rw [h1, h1']
    exact ⟨_, _, _, _, _, rfl, rfl⟩
  | tenant t =>
    rw [ha] at key key'
    obtain ⟨past, ⟨hs, hp, h1, -⟩, hpast⟩ := key
    obtain ⟨past', ⟨hs', hp', h1', -⟩, hpast'⟩ := key'
    have ht := answerer_tenant ha
    have T := tenants t ht
    obtain ⟨env, made⟩ := T.made
    have hpast := hpast plainBefore
    have hpast' := hpast' plainBefore'
    rw [List.filter_map] at hpast hpast'
    obtain ⟨l, rfl, hl⟩ := forget_requests past _ hpast
    obtain ⟨l', rfl, hl'⟩ := forget_requests past' _ hpast'
    obtain ⟨b, hb, hb'⟩ := states t l l' ht (contents_of_bared hl) (contents_of_bared hl')
    rw [h1, h1', hb, hb']
    have hn : (arriving t.ops seen).Path ≠ [] := fun he => T.paths seen path (normalize_empty he)
    obtain ⟨D, ⟨h, hk, hall⟩ | ⟨f, g, hall⟩⟩ := request_same made (C41_always_one E.F text t.ops) T.respect seen hn
    · obtain ⟨r, h1, h2⟩ := hall { seen with Headers := hs } b (contents_storage hp)
      obtain ⟨r', h3, h4⟩ := hall { seen' with Headers := hs' } b ((contents_storage hp').trans alike.symm)
      simp only [V, Router.impl, h1, h3]
      exact program_good T.determined hk r r' _ _ _ (h2.trans h4.symm) holds holds'
    · obtain ⟨r, h1, h2⟩ := hall { seen with Headers := hs } b (contents_storage hp)
      obtain ⟨r', h3, h4⟩ := hall { seen' with Headers := hs' } b ((contents_storage hp').trans alike.symm)
      simp only [V, Router.impl, h1, h3]
      exact ⟨_, _, _, _, _, rfl, rfl⟩

/-- What is left alone when a request is answered. -/
theorem virtual_nice {E : Setup σ (Virtual.Runtime (Runtime Act))} (router : E.router = Virtual.impl E.F (V E)) {vops : List (Virtual.Op Tenant)}
    (tenants : ∀ t, Registered vops t → TenantSame E text t) {history : List Request} {seen : Request} {world : Act.World σ} {f : Fields} {req : Request} {left : Act.World σ} (Q : Fields → Prop)
    (apart : ∀ t, Registered vops t → AllHandlers E.F text t.ops (fun h => ∀ r w f r', ((h r).run E.P E.maxAlloc w).1 = some (f, r') → Q f)) (refusals : ∀ code, Q (Fields.new.code code))
    (ans : (E.router.onRequest (routerAfter E (Virtual.initRouter Tenant.router (Virtual.build vops)) history) seen).1.run E.P E.maxAlloc world = (some (f, req), left)) :
    (seen.Method = .TRACE ∨ Q f) ∧ left.hijacked = world.hijacked ∧ Untouched seen req := by
  have headers : ∀ (r : Request) hs, Untouched r { r with Headers := hs } := fun r hs => ⟨rfl, rfl, rfl, rfl, rfl, id⟩
  have arrives : ∀ t, Registered vops t → ∀ r, Untouched r (arriving t.ops r) := fun t ht r => ((tenants t ht).mutators r).normalised _
  rw [virtual_after router, router] at ans
  rcases served_any E.F (V E) Tenant.router vops (history.map .request) seen with ⟨code, hc, hs, hp, h1, -⟩ | ⟨t, past, ht, hs, hp, h1, -⟩
  · rw [h1] at ans
    cases ans
    exact ⟨.inr (refusals _), rfl, headers seen hs⟩
  · have T := tenants t ht
    obtain ⟨env, made⟩ := T.made
    obtain ⟨b, hb⟩ := history_buff made .panic past
    rw [h1, hb] at ans
    simp only [V, Router.impl] at ans
    rcases request_known made (C41_always_one E.F text t.ops) b { seen with Headers := hs } with ⟨h, r, hk, hp, h1⟩ | ⟨hm, f', r, b', hp, h1⟩ | ⟨-, -, h1⟩
    · rw [h1, Option.getD_some] at ans
      have ha1 : ((h r).run E.P E.maxAlloc world).1 = some (f, req) := congrArg Prod.fst ans
      have hg := program_good T.polite hk
      refine ⟨.inr (program_good (apart t ht) hk r _ f req ha1), ?_, ((headers seen hs).trans ((arrives t ht _).passed hp)).trans (hg.request r _ f req ha1)⟩
      have := hg.hijacked r world
      rw [show (h r).run E.P E.maxAlloc world = _ from ans] at this
      exact this
    · rw [h1] at ans
      cases ans
      refine ⟨.inl ?_, rfl, (headers seen hs).trans ((arrives t ht _).passed hp)⟩
      rw [(arrives t ht _).method] at hm
      exact hm
    · rw [h1] at ans
      cases ans

theorem virtual_closing {E : Setup σ (Virtual.Runtime (Runtime Act))} (router : E.router = Virtual.impl E.F (V E)) {vops : List (Virtual.Op Tenant)}
    (tenants : ∀ t, Registered vops t → TenantSame E text t) (history : List Request) (seen : Request) (world : Act.World σ) (hw : world.hijacked = false) :
    ((E.router.onError (routerAfter E (Virtual.initRouter Tenant.router (Virtual.build vops)) history) seen closeError).1.run E.P E.maxAlloc world).1.isSome ∧
    ((E.router.onError (routerAfter E (Virtual.initRouter Tenant.router (Virtual.build vops)) history) seen closeError).1.run E.P E.maxAlloc world).2.hijacked = false := by
  rw [virtual_after router, router]
  rcases served_any E.F (V E) Tenant.router vops (history.map .request) seen with ⟨code, hc, hs, hp, -, h1⟩ | ⟨t, past, ht, hs, hp, -, h1⟩
  · rw [h1 _]
    exact ⟨rfl, hw⟩
  · have T := tenants t ht
    obtain ⟨env, made⟩ := T.made
    obtain ⟨b, hb⟩ := history_buff made .panic past
    rw [h1 _, hb]
    obtain ⟨h, hh, hr⟩ := tenant_excuses made b { seen with Headers := hs } Status.ErrCloseConnection (by decide) (by decide)
    rw [show closeError = .http Status.ErrCloseConnection from rfl]
    simp only [V]
    rw [hr]
    exact ⟨T.closing h _ world hh hw, by rw [(program_good T.polite (handlerFor_known hh)).hijacked]; exact hw⟩

theorem virtual_tame {E : Setup σ (Virtual.Runtime (Runtime Act))} (router : E.router = Virtual.impl E.F (V E)) {vops : List (Virtual.Op Tenant)}
    (tenants : ∀ t, Registered vops t → TenantSame E text t) : Tame E (Virtual.initRouter Tenant.router (Virtual.build vops)) := by
  intro history req w f req' hq hr
  obtain ⟨-, -, hu⟩ := virtual_nice (left := ((E.router.onRequest (routerAfter E (Virtual.initRouter Tenant.router (Virtual.build vops)) history) req).1.run E.P E.maxAlloc w).2)
    router tenants (fun _ => True) (fun t ht => ⟨fun _ _ _ _ _ _ _ => trivial, fun _ _ _ _ _ _ _ => trivial, fun _ _ _ _ _ _ _ => trivial⟩) (fun _ => trivial) (Prod.ext hr rfl)
  exact ⟨hu.query hq, hu.remote, hu.proto⟩

/-- What was heard is determined by what was sent. -/
theorem heard_alike {E : Setup σ (Virtual.Runtime (Runtime Act))} {good : Sending → Prop} {T : Nat} {enc : EncToken} {remote : Bytes} {post post' : List (Bytes × Option GoErr)} {before : List Sending}
    {history history' : List Request} (h : HeardSo E good T enc remote post before history) (h' : HeardSo E good T enc remote post' before history') : history.map contents = history'.map contents := by
  induction h generalizing history' with
  | none =>
    generalize hx : ([] : List Sending) = x at h'
    cases h' with
    | none => rfl
    | next => simp at hx
  | @next before history s after seen world heard hg del ih =>
    generalize hx : before ++ [s] = x at h'
    cases h' with
    | none => simp at hx
    | @next before' history' s' after' seen' world' heard' hg' del' =>
      obtain ⟨rfl, hs⟩ := List.append_inj' hx rfl
      cases hs
      rw [List.map_append, List.map_append, ih heard', List.map_singleton, List.map_singleton, delivered_unique del del']

/-- What holds of all requests which were heard. -/
theorem heard_all {E : Setup σ (Virtual.Runtime (Runtime Act))} {good : Sending → Prop} {T : Nat} {enc : EncToken} {remote : Bytes} {post : List (Bytes × Option GoErr)} {before : List Sending}
    {history : List Request} (h : HeardSo E good T enc remote post before history) {P : Request → Prop}
    (each : ∀ env s after seen world, good s → Delivered E T remote post env s after seen world → P seen) : ∀ r ∈ history, P r := by
  induction h with
  | none => intro r hr; cases hr
  | next heard hg del ih =>
    intro r hr
    rcases List.mem_append.1 hr with hr | hr
    · exact ih r hr
    · cases List.mem_singleton.1 hr
      exact each _ _ _ _ _ hg del

/-- The answers of such programs behind virtual hosts are functions of what is sent. -/
theorem hosts_repeatable {E : Setup σ (Virtual.Runtime (Runtime Act))} (router : E.router = Virtual.impl E.F (Router.impl E.F .panic)) {cfg : Config}
    (alloc : cfg.bodyMaxSize.toNat ≤ E.maxAlloc) (large : E.maxAlloc < 2 ^ 63) (enc : EncToken) (remote : Bytes)
    (vops : List (Virtual.Op Tenant)) (tenants : ∀ t, Registered vops t → TenantSame E text t) (plainHosts : ∀ e ∈ hostsRegistered vops, ∀ c ∈ e.1, HostChar c) :
    ∃ reply, Repeatable E (fun s => SendableWith E.F cfg s ∧ PlainHead s.head) cfg.maxEncodingTokens.toNat enc remote (Virtual.initRouter Tenant.router (Virtual.build vops)) reply := by
  have path : ∀ {s : Sending} {post env after seen world}, SendableWith E.F cfg s → Delivered E cfg.maxEncodingTokens.toNat remote post env s after seen world → seen.Path ≠ [] :=
    fun hs del => by rw [del.path]; exact unescapes_ne hs.path hs.ok.target.1
  have plainBefore : ∀ {post before history}, HeardSo E (fun s => SendableWith E.F cfg s ∧ PlainHead s.head) cfg.maxEncodingTokens.toNat enc remote post before history →
      PlainHistory (history.map Event.request) vops := by
    intro post before history heard e he
    obtain ⟨r, hr, rfl⟩ := List.mem_map.1 he
    exact heard_all heard (P := fun r => Plain r vops) (fun _ _ _ _ _ hg del => plain_delivered del hg.2 plainHosts) r hr
  refine repeatable_of ?_ ?_ ?_
  · intro before history history' post post' s after after' seen seen' world world' heard heard' hg del del'
    have alike := delivered_unique del del'
    have near := neighbours_contents vops (heard_alike heard heard') alike
    refine virtual_two router tenants plainHosts alike (plain_carried del.carries hg.2) (plainBefore heard) (plainBefore heard') (path hg.1 del)
      (delivered_holds alloc large hg.1 del) (delivered_holds alloc large hg.1 del') ?_
    intro t past past' ht h1 h2
    have T := tenants t ht
    obtain ⟨env, made⟩ := T.made
    refine tenant_after made T.respect T.paths past past' t.router.traceBuff (h1.trans (near.trans h2.symm)) ?_
    intro r hr
    have hr' : contents r ∈ (neighbours vops history seen).map contents := by rw [← h1]; exact List.mem_map_of_mem hr
    obtain ⟨r', hr', he⟩ := List.mem_map.1 hr'
    have := heard_all heard (P := fun r => r.Path ≠ []) (fun _ _ _ _ _ hg del => path hg.1 del) r' (List.mem_filter.1 hr').1
    rw [show r.Path = r'.Path from (congrArg Request.Path he.symm :)]
    exact this
  · intro before history post s after seen world f req left _ hg del ha
    obtain ⟨-, h2, h3⟩ := virtual_nice router tenants (fun _ => True) (fun t ht => ⟨fun _ _ _ _ _ _ _ => trivial, fun _ _ _ _ _ _ _ => trivial, fun _ _ _ _ _ _ _ => trivial⟩) (fun _ => trivial) ha
    exact ⟨h2, h3.method, h3.connection, h3.upgrade⟩
  · exact fun history seen world hw => virtual_closing router tenants history seen world hw

/-- **C110**, for several programs behind virtual hosts (`TenantSame` says what is asked of them). Two clients send the same well-formed requests, one after another, for whichever hosts, cut into pieces in different ways; there are only letters, digits, `-`, `.` and `:` in the names of
headers and in hosts; writing to the clients has the same results. Then the server writes the same bytes to both, and serving ends in the same way. -/
theorem C110_hosts (E : Setup σ (Virtual.Runtime (Runtime Act))) (dec : DecodesChunked E.P) (router : E.router = Virtual.impl E.F (Router.impl E.F .panic)) (cfg : Config)
    (size : cfg.bodyMaxSize < 2 ^ 64) (alloc : cfg.bodyMaxSize.toNat ≤ E.maxAlloc) (large : E.maxAlloc < 2 ^ 63) (enc : EncToken) (remote : Bytes)
    (vops : List (Virtual.Op Tenant)) (tenants : ∀ t, Registered vops t → TenantSame E text t) (plainHosts : ∀ e ∈ hostsRegistered vops, ∀ c ∈ e.1, HostChar c)
    (ss : List Sending) (ok : ∀ s ∈ ss, SendableWith E.F cfg s ∧ PlainHead s.head)
    (cl₁ cl₂ : Client) (quiet₁ : Quiet cl₁) (quiet₂ : Quiet cl₂) (writes : cl₁.wscript = cl₂.wscript)
    (post₁ post₂ : List (Bytes × Option GoErr)) (silent₁ : Silent post₁) (silent₂ : Silent post₂)
    (stream₁ : cl₁.stream = ss.flatMap Sending.bytes) (stream₂ : cl₂.stream = ss.flatMap Sending.bytes) :
    ∃ frames why,
      (serve E (newConn E.P cfg enc remote (Virtual.initRouter Tenant.router (Virtual.build vops)) (followedBy cl₁ post₁))).1.client.written = cl₁.written ++ frames ∧
      (serve E (newConn E.P cfg enc remote (Virtual.initRouter Tenant.router (Virtual.build vops)) (followedBy cl₂ post₂))).1.client.written = cl₂.written ++ frames ∧
      (serve E (newConn E.P cfg enc remote (Virtual.initRouter Tenant.router (Virtual.build vops)) (followedBy cl₁ post₁))).2 = some why ∧
      (serve E (newConn E.P cfg enc remote (Virtual.initRouter Tenant.router (Virtual.build vops)) (followedBy cl₂ post₂))).2 = some why := by
  obtain ⟨reply, rep⟩ := hosts_repeatable router alloc large enc remote vops tenants plainHosts
  exact C110_same_answers E dec cfg size enc remote _ (virtual_tame router tenants) reply (fun s => PlainHead s.head) rep ss ok cl₁ cl₂ quiet₁ quiet₂ writes post₁ post₂ silent₁ silent₂ stream₁ stream₂

/-- **C111 (part)**, for several programs behind virtual hosts, on connections which are not encrypted. Moreover, the handlers set none of the default headers. A client sends well-formed requests on one connection, for whichever hosts, none of them TRACE or with the header Upgrade, and other ones send
each of them on a connection of its own. Then the server writes to the first one what it writes to the other ones, one after another, until one of the requests after which it closes the connection. -/
theorem C111_hosts_partial (E : Setup σ (Virtual.Runtime (Runtime Act))) (dec : DecodesChunked E.P) (router : E.router = Virtual.impl E.F (Router.impl E.F .panic)) (cfg : Config)
    (size : cfg.bodyMaxSize < 2 ^ 64) (alloc : cfg.bodyMaxSize.toNat ≤ E.maxAlloc) (large : E.maxAlloc < 2 ^ 63) (remote : Bytes)
    (vops : List (Virtual.Op Tenant)) (tenants : ∀ t, Registered vops t → TenantSame E text t) (plainHosts : ∀ e ∈ hostsRegistered vops, ∀ c ∈ e.1, HostChar c)
    (apart : ∀ t, Registered vops t → AllHandlers E.F text t.ops (fun h => ∀ r w f r', ((h r).run E.P E.maxAlloc w).1 = some (f, r') →
      ∀ x ∈ f.Headers, ∀ d ∈ cfg.defaultHeaders.getD [], E.F.eq d.1 x.Key = false))
    (ss : List Sending) (ok : ∀ s ∈ ss, SendableWith E.F cfg s ∧ PlainHead s.head) (untraced : ∀ s ∈ ss, s.head.method ≠ .TRACE) (plain : ∀ s ∈ ss, s.head.last b!"upgrade" = none)
    (cl : Client) (quiet : Quiet cl) (writes : cl.wscript = []) (post : List (Bytes × Option GoErr)) (silent : Silent post) (stream : cl.stream = ss.flatMap Sending.bytes)
    (own : Sending → Client) (posts : Sending → List (Bytes × Option GoErr))
    (owns : ∀ s ∈ ss, Quiet (own s) ∧ (own s).wscript = [] ∧ (own s).written = [] ∧ Silent (posts s) ∧ (own s).stream = s.bytes) :
    ∃ frames why, (frames, why) = inTurn (fun s =>
        ((serve E (newConn E.P cfg Middleware.Plain remote (Virtual.initRouter Tenant.router (Virtual.build vops)) (followedBy (own s) (posts s)))).1.client.written,
         (serve E (newConn E.P cfg Middleware.Plain remote (Virtual.initRouter Tenant.router (Virtual.build vops)) (followedBy (own s) (posts s)))).2)) ss ∧
      (serve E (newConn E.P cfg Middleware.Plain remote (Virtual.initRouter Tenant.router (Virtual.build vops)) (followedBy cl post))).1.client.written = cl.written ++ frames ∧
      (serve E (newConn E.P cfg Middleware.Plain remote (Virtual.initRouter Tenant.router (Virtual.build vops)) (followedBy cl post))).2 = why := by
  let good : Sending → Prop := fun s => SendableWith E.F cfg s ∧ SendableWith E.F cfg s ∧ PlainHead s.head ∧ s.head.method ≠ .TRACE
  have path : ∀ {s : Sending} {post env after seen world}, SendableWith E.F cfg s → Delivered E cfg.maxEncodingTokens.toNat remote post env s after seen world → seen.Path ≠ [] :=
    fun hs del => by rw [del.path]; exact unescapes_ne hs.path hs.ok.target.1
  have plainBefore : ∀ {post before history}, HeardSo E good cfg.maxEncodingTokens.toNat Middleware.Plain remote post before history →
      PlainHistory (history.map Event.request) vops := by
    intro post before history heard e he
    obtain ⟨r, hr, rfl⟩ := List.mem_map.1 he
    exact heard_all heard (P := fun r => Plain r vops) (fun _ _ _ _ _ hg del => plain_delivered del hg.2.2.1 plainHosts) r hr
  have rest : ∀ {post before history seen} (t : Tenant) (past : List Request), HeardSo E good cfg.maxEncodingTokens.toNat Middleware.Plain remote post before history → Registered vops t →
      past.map contents = (neighbours vops history seen).map contents → after (V E) t.router (past.map .request) = t.router := by
    intro post before history seen t past heard ht h1
    have T := tenants t ht
    obtain ⟨env, made⟩ := T.made
    refine tenant_untraced made T.mutators T.paths past ?_
    intro r hr
    have hr' : contents r ∈ (neighbours vops history seen).map contents := by rw [← h1]; exact List.mem_map_of_mem hr
    obtain ⟨r', hr', he⟩ := List.mem_map.1 hr'
    have := heard_all heard (P := fun r => r.Path ≠ [] ∧ r.Method ≠ .TRACE) (fun _ _ _ _ _ hg del => ⟨path hg.1 del, by rw [del.carries.method]; exact hg.2.2.2⟩) r' (List.mem_filter.1 hr').1
    rw [show r.Path = r'.Path from (congrArg Request.Path he.symm :), show r.Method = r'.Method from (congrArg Request.Method he.symm :)]
    exact this
  have plainly : ∀ b, environment Middleware.Plain b = {} := fun b => by unfold environment; split <;> rfl
  obtain ⟨reply, rep, hQ⟩ : ∃ reply, Repeatable E good cfg.maxEncodingTokens.toNat Middleware.Plain remote (Virtual.initRouter Tenant.router (Virtual.build vops)) (fun _ => reply) ∧
      ∀ s, good s → ∀ h ∈ (reply s).Headers, ∀ d ∈ cfg.defaultHeaders.getD [], E.F.eq d.1 h.Key = false := by
    refine repeatable_own (fun f => ∀ h ∈ f.Headers, ∀ d ∈ cfg.defaultHeaders.getD [], E.F.eq d.1 h.Key = false) (by intro h hh; cases hh) ?_ ?_ ?_
    · intro before before' history history' post post' s after after' seen seen' world world' heard heard' hg del del'
      rw [plainly] at del del'
      refine virtual_two router tenants plainHosts (delivered_unique del del') (plain_carried del.carries hg.2.2.1) (plainBefore heard) (plainBefore heard') (path hg.1 del)
        (delivered_holds alloc large hg.1 del) (delivered_holds alloc large hg.1 del') ?_
      intro t past past' ht h1 h2
      exact ⟨t.router.traceBuff, rest t past heard ht h1, rest t past' heard' ht h2⟩
    · intro before history post s after seen world f req left _ hg del ha
      obtain ⟨h1, h2, h3⟩ := virtual_nice router tenants (fun f => ∀ h ∈ f.Headers, ∀ d ∈ cfg.defaultHeaders.getD [], E.F.eq d.1 h.Key = false) apart (fun _ h hh => by cases hh) ha
      refine ⟨h1.resolve_left (by rw [del.carries.method]; exact hg.2.2.2), h2, h3.method, h3.connection, h3.upgrade⟩
    · exact fun history seen world hw => virtual_closing router tenants history seen world hw
  exact C111_reuse_partial E dec cfg size Middleware.Plain remote _ (virtual_tame router tenants) reply (fun s => SendableWith E.F cfg s ∧ PlainHead s.head ∧ s.head.method ≠ .TRACE) rep
    (fun s hs => hQ s ⟨hs.1, hs⟩) ss (fun s hs => ⟨(ok s hs).1, (ok s hs).1, (ok s hs).2, untraced s hs⟩) plain cl quiet writes post silent stream own posts owns

/-! ### The hypotheses are met -/

/-- The programs of the `village` are meant. -/
theorem village_same : ∀ t, Registered village t → TenantSame streetSetup (fun _ => []) t ∧
    AllHandlers streetSetup.F (fun _ => []) t.ops (fun h => ∀ r w f r', ((h r).run streetSetup.P streetSetup.maxAlloc w).1 = some (f, r') →
      ∀ x ∈ f.Headers, ∀ d ∈ Config.default.defaultHeaders.getD [], streetSetup.F.eq d.1 x.Key = false) := by
  have all : ∀ t, Registered village t → ∃ x y, t = innTenant x y := by
    intro t ht
    rcases ht with ht | ht
    · have : hostsRegistered village = [(b!"a.com", innTenant b!"A" b!"not A"), (b!"b.org", innTenant b!"B" b!"not B")] := by
        simp [hostsRegistered, village, show ¬ IsAny b!"a.com" by decide, show ¬ IsAny b!"b.org" by decide]
      rw [this] at ht
      simp only [List.map_cons, List.map_nil, List.mem_cons, List.not_mem_nil, or_false] at ht
      rcases ht with rfl | rfl <;> exact ⟨_, _, rfl⟩
    · have : defaultsRegistered village = [] := by
        simp [defaultsRegistered, village, show ¬ IsAny b!"a.com" by decide, show ¬ IsAny b!"b.org" by decide]
      rw [this] at ht
      cases ht
  intro t ht
  obtain ⟨x, y, rfl⟩ := all t ht
  have ok := inn_ok x y
  refine ⟨⟨ok.made, ok.mutators, fun r h => h, fun r r' h => h, ok.polite, ⟨?_, (fun c (hc : c ∈ []) => (List.not_mem_nil hc).elim), ?_⟩, ?_⟩,
    ⟨?_, (fun c (hc : c ∈ []) => (List.not_mem_nil hc).elim), ?_⟩⟩
  · intro d hd
    have hd : d ∈ declared (inn x y) := hd
    rw [inn_declared] at hd
    cases List.mem_singleton.1 hd
    exact determined_pure _ _ (fun _ => Fields.new.bytes x) (fun r => rfl)
  · intro e he
    have he : e ∈ errorHandlers (Spec.Router.defaults streetSetup.F (fun _ => [])) (inn x y) := he
    rw [inn_errors] at he
    simp only [List.mem_cons, List.not_mem_nil, or_false] at he
    rcases he with rfl | rfl | rfl | rfl | rfl
    · exact determined_pure _ _ (fun r => Fields.new.error (fun _ => []) r.Env.Error []) (fun r => rfl)
    · exact determined_pure _ _ (fun r => ((Fields.new.error (fun _ => []) (some (.http Status.ErrMethodNotAllowed)) []).header Fold.ascii b!"Allow" [r.Env.AllowedMethods]).getD
        (Fields.new.error (fun _ => []) (some (.http Status.ErrMethodNotAllowed)) [])) (fun r => rfl)
    all_goals exact determined_pure _ _ (fun _ => Fields.new.bytes y) (fun r => rfl)
  · intro h r world hh _
    have : handlerFor streetSetup.F (fun _ => []) (innTenant x y).ops Status.ErrCloseConnection.Code = some (defaultAllErrorsHandler (fun _ => [])) := rfl
    rw [this] at hh
    cases hh
    rfl
  · intro d hd r w f r' hr z hz
    have hd : d ∈ declared (inn x y) := hd
    rw [inn_declared] at hd
    cases List.mem_singleton.1 hd
    cases hr
    cases hz
  · intro e he r w f r' hr z hz
    have he : e ∈ errorHandlers (Spec.Router.defaults streetSetup.F (fun _ => [])) (inn x y) := he
    rw [inn_errors] at he
    simp only [List.mem_cons, List.not_mem_nil, or_false] at he
    rcases he with rfl | rfl | rfl | rfl | rfl
    · cases hr
      revert z
      rcases r.Env.Error with _ | e
      · intro x hx; cases hx
      · cases e <;> intro x hx <;> cases hx
    · cases hr
      have : z.Key = b!"Allow" := by
        change z ∈ [⟨b!"Allow", r.Env.AllowedMethods⟩] at hz
        rw [List.mem_singleton.1 hz]
      rw [this]
      decide +kernel
    all_goals
      cases hr
      cases hz

set_option maxRecDepth 200000 in
/-- C110 for virtual hosts: four requests for two hosts, three of them with TRACE, which come in one piece, and in three; this is what is written to both clients. -/
example : (∀ t, Registered village t → TenantSame streetSetup (fun _ => []) t) ∧ (∀ e ∈ hostsRegistered village, ∀ c ∈ e.1, HostChar c) ∧
    (∀ c ∈ calls, SendableWith streetSetup.F Config.default (calling c.1 c.2) ∧ PlainHead (calling c.1 c.2).head) ∧
    ∃ cl₁ cl₂ : Client, Quiet cl₁ ∧ Quiet cl₂ ∧ cl₁.wscript = cl₂.wscript ∧ cl₁.stream = (calls.map (fun c => calling c.1 c.2)).flatMap Sending.bytes ∧
      cl₂.stream = (calls.map (fun c => calling c.1 c.2)).flatMap Sending.bytes ∧ cl₁.conn.length ≠ cl₂.conn.length ∧
      (readAnswers [.TRACE, .TRACE, .POST, .TRACE]
        (serve streetSetup (newConn streetSetup.P Config.default 1 b!"1.2.3.4" (Virtual.initRouter Tenant.router (Virtual.build village)) (followedBy cl₁ []))).1.client.written.flatten).map
        (List.map (fun a => (a.2.code, a.2.rest))) =
        some [(200, b!"TRACE / HTTP/1.1\r\nHost: a.com\r\nContent-Length: 0\r\n\r\n"), (200, b!"TRACE / HTTP/1.1\r\nHost: B.org\r\nContent-Length: 0\r\n\r\n"), (200, b!"not A"),
          (200, b!"TRACE / HTTP/1.1\r\nHost: a.com\r\nContent-Length: 0\r\n\r\nTRACE / HTTP/1.1\r\nHost: A.com\r\nContent-Length: 0\r\n\r\n")] := by
  refine ⟨fun t ht => (village_same t ht).1, village_ok.2.1, calling_ok,
    arrive [(calls.map (fun c => calling c.1 c.2)).flatMap Sending.bytes],
    arrive [((calls.map (fun c => calling c.1 c.2)).flatMap Sending.bytes).take 7, (((calls.map (fun c => calling c.1 c.2)).flatMap Sending.bytes).drop 7).take 60, ((calls.map (fun c => calling c.1 c.2)).flatMap Sending.bytes).drop 67],
    by unfold Quiet; decide +kernel, by unfold Quiet; decide +kernel, rfl, by decide +kernel, by decide +kernel, by decide +kernel, by decide +kernel⟩

set_option maxRecDepth 200000 in
/-- C111 for virtual hosts: the requests `visits`, for two hosts, for one nobody is registered for, for none and for two at once, each on a connection of its own; this is what is written when they come on one connection. -/
example : (∀ t, Registered village t → TenantSame streetSetup (fun _ => []) t ∧
      AllHandlers streetSetup.F (fun _ => []) t.ops (fun h => ∀ r w f r', ((h r).run streetSetup.P streetSetup.maxAlloc w).1 = some (f, r') →
        ∀ x ∈ f.Headers, ∀ d ∈ Config.default.defaultHeaders.getD [], streetSetup.F.eq d.1 x.Key = false)) ∧ (∀ e ∈ hostsRegistered village, ∀ c ∈ e.1, HostChar c) ∧
    (∀ hosts ∈ visits, SendableWith streetSetup.F Config.default (visiting hosts) ∧ PlainHead (visiting hosts).head ∧ (visiting hosts).head.method ≠ .TRACE ∧
      (visiting hosts).head.last b!"upgrade" = none) ∧
    inTurn (fun s =>
        ((serve streetSetup (newConn streetSetup.P Config.default Middleware.Plain b!"1.2.3.4" (Virtual.initRouter Tenant.router (Virtual.build village)) (arrive [s.bytes]))).1.client.written,
         (serve streetSetup (newConn streetSetup.P Config.default Middleware.Plain b!"1.2.3.4" (Virtual.initRouter Tenant.router (Virtual.build village)) (arrive [s.bytes]))).2))
        (visits.map visiting) =
      ([b!"HTTP/1.1 200 OK\r\nAccept-Encodings: identity\r\nContent-Type: text/html\r\nContent-Length: 1\r\n\r\nA",
        b!"HTTP/1.1 200 OK\r\nAccept-Encodings: identity\r\nContent-Type: text/html\r\nContent-Length: 1\r\n\r\nB",
        b!"HTTP/1.1 421 Misdirected Request\r\nAccept-Encodings: identity\r\nContent-Type: text/html\r\nContent-Length: 0\r\n\r\n",
        b!"HTTP/1.1 400 Bad Request\r\nAccept-Encodings: identity\r\nContent-Type: text/html\r\nContent-Length: 0\r\n\r\n",
        b!"HTTP/1.1 400 Bad Request\r\nAccept-Encodings: identity\r\nContent-Type: text/html\r\nContent-Length: 0\r\n\r\n"], some .readFailed) := by
  refine ⟨village_same, village_ok.2.1, fun hosts h => ⟨(visiting_ok hosts h).1, (visiting_ok hosts h).2.1, by simp [visiting], ?_⟩, ?_⟩
  · revert hosts; decide +kernel
  · decide +kernel

end Indigo.Props
