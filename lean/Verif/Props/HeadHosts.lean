/-
C112 for programs behind virtual hosts: the answer to a HEAD request is the head of the answer to the same GET request.
-/
import Verif.Props.HeadLike
import Verif.Props.SameHosts

namespace Indigo.Props
open Indigo.Serve Indigo.Spec Indigo.Router Indigo.Spec.Router Indigo.Spec.Virtual
variable {σ : Type} {text : GoErr → Bytes}

/-- What is asked of a program besides: it has no handlers for HEAD, and its handlers do not care whether the method is GET or HEAD; their answers have no line breaks in what goes into heads if the list of allowed methods has none, and its mutators do not put any there, and do not look at the method. -/
structure TenantHead {σ ρ : Type} (E : Setup σ ρ) (text : GoErr → Bytes) (t : Tenant) : Prop where
  noHead : ∀ d ∈ declared t.ops, d.1.2 ≠ .HEAD
  allow : ∀ r, NoBreak r.Env.AllowedMethods → NoBreak (mutated t.ops r).Env.AllowedMethods
  methods : ∀ r : Request, r.Method = .GET → mutated t.ops { r with Method := .HEAD } = { mutated t.ops r with Method := .HEAD }
  blind : AllHandlers E.F text t.ops (HeadBlind E)
  clean : AllHandlers E.F text t.ops (fun h => ∀ r w f r', NoBreak r.Env.AllowedMethods → ((h r).run E.P E.maxAlloc w).1 = some (f, r') → ResponseClean f)

/-- A program in a state of its own answers a request with HEAD as it answers the same one with GET. -/
theorem program_head {E : Setup σ ρ} {t : Tenant} (T : TenantSame E text t) (H : TenantHead E text t) (b : Bytes) {seen seen' : Request} {w w' : Act.World σ} {body : Bytes} (get : seen.Method = .GET)
    (path : seen.Path ≠ []) (alike : contents seen' = contents { seen with Method := .HEAD }) (noBreak : NoBreak seen.Env.AllowedMethods) (holds : Holds E w body) (holds' : Holds E w' body) :
    ∃ f q q' left left', ((Router.impl (m := Act) E.F .panic).onRequest { t.router with traceBuff := b } seen).1.run E.P E.maxAlloc w = (some (f, q), left) ∧
      ((Router.impl (m := Act) E.F .panic).onRequest { t.router with traceBuff := b } seen').1.run E.P E.maxAlloc w' = (some (f, q'), left') ∧ ResponseClean f := by
  obtain ⟨env, made⟩ := T.made
  have notEmpty : (arriving t.ops seen).Path ≠ [] := fun he => T.paths seen path (normalize_empty he)
  have notEmpty' : (arriving t.ops { seen with Method := .HEAD }).Path ≠ [] := by
    simp only [arriving, H.methods seen get]
    exact notEmpty
  obtain ⟨h, r, hk, ⟨hr, hcl⟩, k1, k2⟩ := request_head made (C41_always_one E.F text t.ops) H.noHead
    (fun r hr => ⟨(T.mutators r).method.trans hr, H.methods r hr⟩) b seen get notEmpty (H.allow seen)
  obtain ⟨f, x, x', l, l', b1, b2⟩ := program_good H.blind hk r _ _ hr holds
  have hc : ResponseClean f := program_good H.clean hk r w f x (hcl noBreak) (congrArg Prod.fst b1)
  simp only [Router.impl, k1]
  obtain ⟨D, ⟨h', hk', hall⟩ | ⟨fb, g, hall⟩⟩ := request_same made (C41_always_one E.F text t.ops) T.respect { seen with Method := .HEAD } notEmpty'
  · obtain ⟨r0, c1, c2⟩ := hall { seen with Method := .HEAD } b rfl
    obtain ⟨r1, c3, c4⟩ := hall seen' b alike
    rw [k2] at c1
    simp only [Option.some.injEq, Prod.mk.injEq, and_true] at c1
    obtain ⟨f', _, y, _, m, g1, g2⟩ := program_good T.determined hk' r0 r1 _ _ _ (c2.trans c4.symm) holds holds'
    rw [← c1, b2] at g1
    cases g1
    simp only [c3]
    exact ⟨f, x, y, l, m, b1, g2, hc⟩
  · obtain ⟨r0, c1, c2⟩ := hall { seen with Method := .HEAD } b rfl
    obtain ⟨r1, c3, c4⟩ := hall seen' b alike
    rw [k2] at c1
    simp only [Option.some.injEq, Prod.mk.injEq] at c1
    rw [c1.1] at b2
    have b3 := congrArg Prod.fst b2
    simp only [pure, Act.run, Option.some.injEq, Prod.mk.injEq] at b3
    simp only [c3]
    refine ⟨f, x, r1, l, w', b1, ?_, hc⟩
    rw [← b3.1]
    rfl

/-- Programs behind virtual hosts answer a request with HEAD as they answer the same one with GET. -/
theorem virtual_head {E : Setup σ (Virtual.Runtime (Runtime Act))} (router : E.router = Virtual.impl E.F (V E)) {vops : List (Virtual.Op Tenant)}
    (tenants : ∀ t, Registered vops t → TenantSame E text t ∧ TenantHead E text t) (registered : ∀ e ∈ hostsRegistered vops, ∀ c ∈ e.1, HostChar c)
    {history history' : List Request} {seen seen' : Request} {world world' : BC σ} {body : Bytes} (get : seen.Method = .GET) (alike : contents seen' = contents { seen with Method := .HEAD })
    (noBreak : NoBreak seen.Env.AllowedMethods) (plain : PlainSeen seen) (plainBefore : PlainHistory (history.map Event.request) vops) (plainBefore' : PlainHistory (history'.map Event.request) vops)
    (path : seen.Path ≠ []) (holds : Holds E ⟨world.1, world.2, false⟩ body) (holds' : Holds E ⟨world'.1, world'.2, false⟩ body)
    (states : ∀ t (past past' : List Request), Registered vops t → past.map contents = (neighbours vops history seen).map contents → past'.map contents = (neighbours vops history' seen).map contents →
      ∃ b, after (V E) t.router (past.map .request) = { t.router with traceBuff := b } ∧ after (V E) t.router (past'.map .request) = { t.router with traceBuff := b }) :
    ∃ f req req' left left', Answers E (routerAfter E (Virtual.initRouter Tenant.router (Virtual.build vops)) history) seen world (some (f, req), left) ∧
      Answers E (routerAfter E (Virtual.initRouter Tenant.router (Virtual.build vops)) history') seen' world' (some (f, req'), left') ∧ ResponseClean f := by
  have hh : hostsOf seen' = hostsOf seen := (congrArg hostsOf alike :)
  have htarget : target vops seen' = target vops seen := (congrArg (target vops) alike :)
  have hpairs : seen'.Headers.pairs = seen.Headers.pairs := (congrArg (fun r : Request => r.Headers.pairs) alike :)
  have plain' : PlainSeen seen' := ⟨by rw [hpairs]; exact plain.1, by rw [hh]; exact plain.2⟩
  have key := dispatches E vops (history.map .request) seen (plain_seen plain registered)
  have key' := dispatches E vops (history'.map .request) seen' (plain_seen plain' registered)
  rw [hh] at key'
  unfold Answers
  rw [virtual_after router, virtual_after router, router]
  cases ha : answerer vops (hostsOf seen) with
  | refusal code =>
    rw [ha] at key key'
    obtain ⟨hs, -, h1, -⟩ := key
    obtain ⟨hs', -, h1', -⟩ := key'
    rw [h1, h1']
    exact ⟨_, _, _, _, _, rfl, rfl, fields_clean new_clean rfl rfl rfl rfl⟩
  | tenant t =>
    rw [ha] at key key'
    obtain ⟨past, ⟨hs, hp, h1, -⟩, hpast⟩ := key
    obtain ⟨past', ⟨hs', hp', h1', -⟩, hpast'⟩ := key'
    have ht := answerer_tenant ha
    obtain ⟨T, H⟩ := tenants t ht
    have hpast := hpast plainBefore
    have hpast' := hpast' plainBefore'
    rw [htarget] at hpast'
    rw [List.filter_map] at hpast hpast'
    obtain ⟨l, rfl, hl⟩ := forget_requests past _ hpast
    obtain ⟨l', rfl, hl'⟩ := forget_requests past' _ hpast'
    obtain ⟨b, hb, hb'⟩ := states t l l' ht (contents_of_bared hl) (contents_of_bared hl')
    rw [h1, h1', hb, hb']
    exact program_head T H b (seen := { seen with Headers := hs }) (seen' := { seen' with Headers := hs' }) get path
      ((contents_storage hp').trans (alike.trans (contents_storage (r := { seen with Method := .HEAD }) hp).symm)) noBreak holds holds'

/-- **C112**, for several programs behind virtual hosts (`TenantSame` and `TenantHead` say what is asked of them). There are only letters, digits, `-`, `.` and `:` in the names of headers and in hosts.
Two clients send well-formed requests `ss`, for whichever hosts, and then one of them sends `s`, with GET, and the other one the same with HEAD, cut into pieces in any ways; none has the header Upgrade; writing to the clients has the same results.
Then, unless serving ends before that last request, what is written to both is the same up to the answer to it; this answer is a complete head without anything after it for HEAD, and begins with that very head for GET. -/
theorem C112_hosts (E : Setup σ (Virtual.Runtime (Runtime Act))) (dec : DecodesChunked E.P) (router : E.router = Virtual.impl E.F (Router.impl E.F .panic)) (cfg : Config)
    (size : cfg.bodyMaxSize < 2 ^ 64) (defaults : DefaultsOK E.F (cfg.defaultHeaders.getD []))
    (alloc : cfg.bodyMaxSize.toNat ≤ E.maxAlloc) (large : E.maxAlloc < 2 ^ 63) (enc : EncToken) (remote : Bytes)
    (vops : List (Virtual.Op Tenant)) (tenants : ∀ t, Registered vops t → TenantSame E text t ∧ TenantHead E text t) (plainHosts : ∀ e ∈ hostsRegistered vops, ∀ c ∈ e.1, HostChar c)
    (ss : List Sending) (s : Sending) (ok : ∀ x ∈ ss ++ [s, asHead s], (SendableWith E.F cfg x ∧ PlainHead x.head) ∧ x.head.last b!"upgrade" = none) (get : s.head.method = .GET)
    (cl₁ cl₂ : Client) (quiet₁ : Quiet cl₁) (quiet₂ : Quiet cl₂) (writes : cl₁.wscript = cl₂.wscript)
    (post₁ post₂ : List (Bytes × Option GoErr)) (silent₁ : Silent post₁) (silent₂ : Silent post₂)
    (stream₁ : cl₁.stream = (ss ++ [s]).flatMap Sending.bytes) (stream₂ : cl₂.stream = (ss ++ [asHead s]).flatMap Sending.bytes) :
    (∃ common why, ss ≠ [] ∧ why ≠ .readFailed ∧
      (serve E (newConn E.P cfg enc remote (Virtual.initRouter Tenant.router (Virtual.build vops)) (followedBy cl₁ post₁))).1.client.written = cl₁.written ++ common ∧
      (serve E (newConn E.P cfg enc remote (Virtual.initRouter Tenant.router (Virtual.build vops)) (followedBy cl₂ post₂))).1.client.written = cl₂.written ++ common ∧
      (serve E (newConn E.P cfg enc remote (Virtual.initRouter Tenant.router (Virtual.build vops)) (followedBy cl₁ post₁))).2 = some why ∧
      (serve E (newConn E.P cfg enc remote (Virtual.initRouter Tenant.router (Virtual.build vops)) (followedBy cl₂ post₂))).2 = some why) ∨
    ∃ common head last m body,
      (serve E (newConn E.P cfg enc remote (Virtual.initRouter Tenant.router (Virtual.build vops)) (followedBy cl₁ post₁))).1.client.written = cl₁.written ++ common ++ last ∧
      (serve E (newConn E.P cfg enc remote (Virtual.initRouter Tenant.router (Virtual.build vops)) (followedBy cl₂ post₂))).1.client.written = cl₂.written ++ common ++ [head] ∧
      readMsg head = some m ∧ m.rest = [] ∧ last.flatten = head ++ body := by
  have tenants' : ∀ t, Registered vops t → TenantSame E text t := fun t ht => (tenants t ht).1
  have tame := virtual_tame router tenants'
  obtain ⟨reply, rep⟩ := hosts_repeatable (cfg := cfg) router alloc large enc remote vops tenants' plainHosts
  have path : ∀ {s : Sending} {post env after seen world}, SendableWith E.F cfg s → Delivered E cfg.maxEncodingTokens.toNat remote post env s after seen world → seen.Path ≠ [] :=
    fun hs del => by rw [del.path]; exact unescapes_ne hs.path hs.ok.target.1
  have plainBefore : ∀ {post before history}, HeardSo E (fun s => SendableWith E.F cfg s ∧ PlainHead s.head) cfg.maxEncodingTokens.toNat enc remote post before history →
      PlainHistory (history.map Event.request) vops := by
    intro post before history heard e he
    obtain ⟨r, hr, rfl⟩ := List.mem_map.1 he
    exact heard_all heard (P := fun r => Plain r vops) (fun _ _ _ _ _ hg del => plain_delivered del hg.2 plainHosts) r hr
  have hs := (ok s (by simp)).1
  have hh := (ok (asHead s) (by simp)).1
  have key := fun same => head_like_get E dec cfg size defaults enc remote _ tame reply (fun s => PlainHead s.head) rep ss s ok get same
    cl₁ cl₂ quiet₁ quiet₂ writes post₁ post₂ silent₁ silent₂ stream₁ stream₂
  refine (fun k => ?_) (key ?_)
  · rcases k with h | ⟨common, head, last, m, h1, h2, h3, h4, -, h6, h7⟩
    · exact .inl h
    right
    by_cases ha : (reply ss s).Attachment.content = none
    · exact ⟨common, head, last, m, (reply ss s).Body, h1, h2, h3, h4, by rw [h6 ha]; simp⟩
    · obtain ⟨t, rfl⟩ := h7 ha
      exact ⟨common, head, _, m, t.flatten, h1, h2, h3, h4, by simp⟩
  · intro post history after seen world post' history' after' seen' world' heard del heard' del'
    have hm : seen.Method = .GET := del.carries.method.trans get
    obtain ⟨q, left, a1, -⟩ := rep.request _ _ _ _ _ _ _ heard hs del
    obtain ⟨q', left', a2, -⟩ := rep.request _ _ _ _ _ _ _ heard' hh del'
    have holds' : Holds E ⟨world'.1, world'.2, false⟩ (asHead s).body := delivered_holds alloc large hh.1 del'
    obtain ⟨f, _, _, _, _, b1, b2, hc⟩ := virtual_head (body := s.body) router tenants plainHosts hm (delivered_head del del')
      (by rw [del.env, environment]; split <;> simp [NoBreak]) (plain_carried del.carries hs.2) (plainBefore heard) (plainBefore heard') (path hs.1 del)
      (delivered_holds alloc large hs.1 del) holds' (by
        intro t past past' ht h1 h2
        have T := tenants' t ht
        obtain ⟨env, made⟩ := T.made
        have near := neighbours_contents vops (heard_alike heard heard') (rfl : contents seen = contents seen)
        refine tenant_after made T.respect T.paths past past' t.router.traceBuff (h1.trans (near.trans h2.symm)) ?_
        intro r hr
        have hr' : contents r ∈ (neighbours vops history seen).map contents := by rw [← h1]; exact List.mem_map_of_mem hr
        obtain ⟨r', hr', he⟩ := List.mem_map.1 hr'
        have := heard_all heard (P := fun r => r.Path ≠ []) (fun _ _ _ _ _ hg del => path hg.1 del) r' (List.mem_filter.1 hr').1
        rw [show r.Path = r'.Path from (congrArg Request.Path he.symm :)]
        exact this)
    unfold Answers at a1 a2 b1 b2
    have e1 := (congrArg Prod.fst a1).symm.trans (congrArg Prod.fst b1)
    have e2 := (congrArg Prod.fst a2).symm.trans (congrArg Prod.fst b2)
    simp only [Option.some.injEq, Prod.mk.injEq] at e1 e2
    exact ⟨e2.1.trans e1.1.symm, by rw [e1.1]; exact hc⟩

/-! ### The hypotheses are met -/

theorem village_inn : ∀ t, Registered village t → ∃ x y, t = innTenant x y := by
  intro t ht
  rcases ht with ht | ht
  · have : hostsRegistered village = [(b!"a.com", innTenant b!"A" b!"not A"), (b!"b.org", innTenant b!"B" b!"not B")] := by
      simp [hostsRegistered, village, show ¬ IsAny b!"a.com" by decide, show ¬ IsAny b!"b.org" by decide]
    rw [this] at ht
    simp only [List.map_cons, List.map_nil, List.mem_cons, List.not_mem_nil, or_false] at ht
    rcases ht with rfl | rfl <;> exact ⟨_, _, rfl⟩
  · have : defaultsRegistered village = [] := by
      simp [defaultsRegistered, village, show ¬ IsAny b!"a.com" by decide, show ¬ IsAny b!"b.org" by decide]
    rw [this] at ht
    cases ht

theorem village_head (t : Tenant) (ht : Registered village t) : TenantHead streetSetup (fun _ => []) t := by
  obtain ⟨x, y, rfl⟩ : ∃ x y, t = innTenant x y := village_inn t ht
  have mutators : ∀ r, mutated (innTenant x y).ops r = r := fun r => rfl
  refine ⟨?_, fun r h => by rw [mutators]; exact h, fun r _ => by rw [mutators, mutators], ⟨?_, (fun c (hc : c ∈ []) => (List.not_mem_nil hc).elim), ?_⟩, ⟨?_, (fun c (hc : c ∈ []) => (List.not_mem_nil hc).elim), ?_⟩⟩
  · intro d hd
    have hd : d ∈ declared (inn x y) := hd
    rw [inn_declared] at hd
    cases List.mem_singleton.1 hd
    simp
  · intro d hd
    have hd : d ∈ declared (inn x y) := hd
    rw [inn_declared] at hd
    cases List.mem_singleton.1 hd
    exact headBlind_pure _ _ (fun _ => Fields.new.bytes x) (fun r => rfl) (fun r _ => rfl)
  · intro e he
    have he : e ∈ errorHandlers (Spec.Router.defaults streetSetup.F (fun _ => [])) (inn x y) := he
    rw [inn_errors] at he
    simp only [List.mem_cons, List.not_mem_nil, or_false] at he
    rcases he with rfl | rfl | rfl | rfl | rfl
    · exact headBlind_pure _ _ (fun r => Fields.new.error (fun _ => []) r.Env.Error []) (fun r => rfl) (fun r _ => rfl)
    · exact headBlind_pure _ _ (fun r => ((Fields.new.error (fun _ => []) (some (.http Status.ErrMethodNotAllowed)) []).header Fold.ascii b!"Allow" [r.Env.AllowedMethods]).getD
        (Fields.new.error (fun _ => []) (some (.http Status.ErrMethodNotAllowed)) [])) (fun r => rfl) (fun r _ => rfl)
    all_goals exact headBlind_pure _ _ (fun _ => Fields.new.bytes y) (fun r => rfl) (fun r _ => rfl)
  · intro d hd r w f r' _ hr
    have hd : d ∈ declared (inn x y) := hd
    rw [inn_declared] at hd
    cases List.mem_singleton.1 hd
    cases hr
    exact bytes_clean _
  · intro e he r w f r' ha hr
    have he : e ∈ errorHandlers (Spec.Router.defaults streetSetup.F (fun _ => [])) (inn x y) := he
    rw [inn_errors] at he
    simp only [List.mem_cons, List.not_mem_nil, or_false] at he
    rcases he with rfl | rfl | rfl | rfl | rfl
    · cases hr
      rcases r.Env.Error with _ | e
      · exact new_clean
      · cases e <;> exact fields_clean new_clean rfl rfl rfl rfl
    · cases hr
      refine ⟨?_, new_clean.contentType, new_clean.transferEncoding, new_clean.cookies⟩
      intro z hz
      change z ∈ [⟨b!"Allow", r.Env.AllowedMethods⟩] at hz
      rw [List.mem_singleton.1 hz]
      exact ⟨by unfold NameOK NoBreak; dsimp only; decide, ha⟩
    all_goals
      cases hr
      exact bytes_clean _

theorem heading_visit_ok : SendableWith Fold.ascii Config.default (asHead (visiting [b!"A.com"])) where
  ok := ⟨by decide, by decide, by simp [visiting, asHead], ⟨⟨_, 46, .inr (.inl ⟨rfl, rfl⟩)⟩, by decide, by decide⟩, by
    simp only [asHead, visiting, List.map_cons, List.map_nil, List.mem_singleton, forall_eq]
    exact ⟨by decide, by decide, by decide, by decide, by decide, by decide⟩⟩
  clean := by unfold Head.CleanNames; decide
  noBareEmpty := by unfold Head.NoBareEmpty; decide
  fits := ⟨by decide +kernel, by decide +kernel, by decide +kernel, by decide +kernel, by decide +kernel⟩
  path := pct_lit (by decide)
  framed := .sized (by decide +kernel) rfl (by decide)
  body := by decide +kernel

set_option maxRecDepth 200000 in
/-- C112 for virtual hosts: requests for two hosts, the last one with GET in one piece, and with HEAD in two. -/
example : (∀ t, Registered village t → TenantSame streetSetup (fun _ => []) t ∧ TenantHead streetSetup (fun _ => []) t) ∧ (∀ e ∈ hostsRegistered village, ∀ c ∈ e.1, HostChar c) ∧
    DefaultsOK streetSetup.F (Config.default.defaultHeaders.getD []) ∧
    (∀ s ∈ [visiting [b!"b.org"]] ++ [visiting [b!"A.com"], asHead (visiting [b!"A.com"])], (SendableWith streetSetup.F Config.default s ∧ PlainHead s.head) ∧ s.head.last b!"upgrade" = none) ∧
    ∃ cl₁ cl₂ : Client, Quiet cl₁ ∧ Quiet cl₂ ∧ cl₁.wscript = cl₂.wscript ∧ cl₁.stream = ([visiting [b!"b.org"]] ++ [visiting [b!"A.com"]]).flatMap Sending.bytes ∧
      cl₂.stream = ([visiting [b!"b.org"]] ++ [asHead (visiting [b!"A.com"])]).flatMap Sending.bytes ∧
      (serve streetSetup (newConn streetSetup.P Config.default 1 b!"1.2.3.4" (Virtual.initRouter Tenant.router (Virtual.build village)) (followedBy cl₁ []))).1.client.written =
        [b!"HTTP/1.1 200 OK\r\nAccept-Encodings: identity\r\nContent-Type: text/html\r\nContent-Length: 1\r\n\r\nB",
         b!"HTTP/1.1 200 OK\r\nAccept-Encodings: identity\r\nContent-Type: text/html\r\nContent-Length: 1\r\n\r\nA"] ∧
      (serve streetSetup (newConn streetSetup.P Config.default 1 b!"1.2.3.4" (Virtual.initRouter Tenant.router (Virtual.build village)) (followedBy cl₂ []))).1.client.written =
        [b!"HTTP/1.1 200 OK\r\nAccept-Encodings: identity\r\nContent-Type: text/html\r\nContent-Length: 1\r\n\r\nB",
         b!"HTTP/1.1 200 OK\r\nAccept-Encodings: identity\r\nContent-Type: text/html\r\nContent-Length: 1\r\n\r\n"] := by
  refine ⟨fun t ht => ⟨(village_same t ht).1, village_head t ht⟩, village_ok.2.1, default_defaults, ?_,
    arrive [([visiting [b!"b.org"]] ++ [visiting [b!"A.com"]]).flatMap Sending.bytes],
    arrive [(([visiting [b!"b.org"]] ++ [asHead (visiting [b!"A.com"])]).flatMap Sending.bytes).take 40, (([visiting [b!"b.org"]] ++ [asHead (visiting [b!"A.com"])]).flatMap Sending.bytes).drop 40],
    by unfold Quiet; decide +kernel, by unfold Quiet; decide +kernel, rfl, by decide +kernel, by decide +kernel, by decide +kernel, by decide +kernel⟩
  intro s hs
  simp only [List.cons_append, List.nil_append, List.mem_cons, List.not_mem_nil, or_false] at hs
  rcases hs with rfl | rfl | rfl
  · exact ⟨⟨(visiting_ok _ (by decide)).1, (visiting_ok _ (by decide)).2.1⟩, by decide +kernel⟩
  · exact ⟨⟨(visiting_ok _ (by decide)).1, (visiting_ok _ (by decide)).2.1⟩, by decide +kernel⟩
  · exact ⟨⟨heading_visit_ok, (visiting_ok [b!"A.com"] (by decide)).2.1⟩, by decide +kernel⟩

end Indigo.Props
