/-
C113: how a request is written makes no difference.
-/
import Verif.Spec.Spelling
import Verif.Props.SameHosts
import Verif.Proofs.Unique

namespace Indigo.Props
open Indigo.Serve Indigo.Spec Indigo.Serializer
variable {σ ρ : Type}

theorem last_fields {n : Bytes} (hn : n ≠ b!"content-length") (h : Head) :
    h.last n = ((((h.fields.filter (fun f => !f.isLength)).map (fun f => (f.name, f.value))).filter (fun p => lower p.1 == n)).getLast?).map Prod.snd := by
  have e1 : h.fields.filter (Field.named n) = (h.fields.filter (fun f => !f.isLength)).filter (Field.named n) := by
    rw [List.filter_filter]
    congr 1
    funext f
    simp only [Field.isLength, Field.named]
    by_cases hf : lower f.name = n
    · rw [hf]; simp [hn]
    · simp [hf]
  rw [Head.last, e1, List.filter_map, List.getLast?_map, Option.map_map]
  rfl

theorem said_last {s s' : Sending} (h : SameSaid s s') {n : Bytes} (hn : n ≠ b!"content-length") : s.head.last n = s'.head.last n := by
  rw [last_fields hn, last_fields hn, h.fields]

/-- What is delivered for a request is delivered for every other one which says the same. -/
theorem delivered_said {E : Setup σ ρ} {T : Nat} {remote : Bytes} {post : List (Bytes × Option GoErr)} {env s s' after seen world} (hs : SameSaid s s')
    (path : Unescapes s'.head.target s'.path) (h : Delivered E T remote post env s after seen world) : Delivered E T remote post env s' after seen world := by
  obtain ⟨c, h1, h2, h3, h4, h5, h6, h7, h8⟩ := h
  have l : ∀ {n : Bytes}, n ≠ b!"content-length" → s.head.last n = s'.head.last n := fun hn => said_last hs hn
  refine ⟨⟨c.method.trans hs.method, ?_, ⟨c.query.1.trans hs.query, c.query.2⟩, (hs.version _).1 c.proto, ?_, ?_, ?_, ?_, ?_, ?_, ?_, ?_, c.chunked⟩, h1.trans hs.path, h2, h3, h4, h5, h6, h7, ?_⟩
  · intro p hp
    rw [h1, hs.path]
    exact Parser.unescapes_unique path hp
  · rw [c.headers]
    have := congrArg (List.map (fun p : Bytes × Bytes => (⟨p.1, p.2⟩ : Pair))) hs.fields
    simpa [List.map_map, Function.comp_def] using this
  · rw [c.contentLength, hs.length]
  · rw [c.connection, l (by decide)]
  · rw [c.contentType, l (by decide)]
  · rw [c.upgrade, l (by decide)]
  · rw [c.trailer, l (by decide)]
  · rw [c.content, l (by decide)]
  · rw [c.transfer, l (by decide)]
  · rw [← hs.body]; exact h8

/-- Two conversations about requests which say the same. -/
theorem conversation_said {E : Setup σ ρ} {T : Nat} {remote : Bytes} {post₁ post₂ : List (Bytes × Option GoErr)} {good : Sending → Prop} {enc : EncToken} {st0 : ρ}
    {reply : List Sending → Sending → Fields} (rep : Repeatable E good T enc remote st0 reply) : ∀ (spellings : List (Sending × Sending)) (before : List Sending) (history₁ history₂ : List Request) d pre ws vs₁ vs₂ frames₁ frames₂ why₁ why₂,
    HeardSo E good T enc remote post₁ before history₁ → HeardSo E good T enc remote post₂ before history₂ →
    (∀ x ∈ spellings, good x.1 ∧ good x.2 ∧ SameSaid x.1 x.2 ∧ Unescapes x.1.head.target x.1.path) →
    Conversation E T remote [] post₁ (Silence E) (environment enc before) (routerAfter E st0 history₁) d pre ws (spellings.map Prod.fst) vs₁ frames₁ why₁ →
    Conversation E T remote [] post₂ (Silence E) (environment enc before) (routerAfter E st0 history₂) d pre ws (spellings.map Prod.snd) vs₂ frames₂ why₂ →
    frames₁ = frames₂ ∧ why₁ = why₂ := by
  intro spellings
  induction spellings with
  | nil =>
    intro before history₁ history₂ d pre ws vs₁ vs₂ frames₁ frames₂ why₁ why₂ heard₁ heard₂ _ h₁ h₂
    exact conversation_same rep [] before history₁ history₂ d pre ws vs₁ vs₂ frames₁ frames₂ why₁ why₂ heard₁ heard₂ (fun s hs => by cases hs) h₁ h₂
  | cons x spellings ih =>
    obtain ⟨s, s'⟩ := x
    intro before history₁ history₂ d pre ws vs₁ vs₂ frames₁ frames₂ why₁ why₂ heard₁ heard₂ hg h₁ h₂
    obtain ⟨hgs, hgs', said, path⟩ := hg (s, s') (by simp)
    obtain ⟨seen₁, world₁, after₁, w₁, d₁, hw₁, c₁⟩ := conversation_step rep heard₁ rfl hgs h₁
    obtain ⟨seen₂, world₂, after₂, w₂, d₂, hw₂, c₂⟩ := conversation_step rep heard₂ rfl hgs' h₂
    have said' : SameSaid s' s := ⟨said.method.symm, said.path.symm, said.query.symm, fun p => (said.version p).symm, said.fields.symm, said.length.symm, said.body.symm⟩
    have d₃ := delivered_said said' path d₂
    have hreply : reply before s' = reply before s := by
      obtain ⟨q, left, a1, -⟩ := rep.request _ _ _ _ _ _ _ heard₂ hgs' d₂
      obtain ⟨q', left', a2, -⟩ := rep.request _ _ _ _ _ _ _ heard₂ hgs d₃
      unfold Answers at a1 a2
      rw [a1] at a2
      simp only [Prod.mk.injEq, Option.some.injEq] at a2
      exact a2.1.1
    rw [hreply] at hw₂
    have hc := delivered_unique d₁ d₃
    have hm : seen₁.Method = seen₂.Method := (congrArg Request.Method hc :)
    have hn : seen₁.Connection = seen₂.Connection := (congrArg Request.Connection hc :)
    have hu : seen₁.Upgrade = seen₂.Upgrade := (congrArg Request.Upgrade hc :)
    have hp : seen₁.Proto = seen₂.Proto := (congrArg Request.Proto hc :)
    have ho := opening_request E.F d pre hp hu
    have hw : w₁ = w₂ := by rw [hw₁, hw₂, ho]; exact write_request _ _ _ _ _ hm hn hu
    subst hw
    rcases c₁ with ⟨o₁, f₁, y₁⟩ | ⟨e₁, o₁, f₁, y₁⟩ | ⟨vs₁', fr₁, o₁, f₁, n₁⟩ <;> rcases c₂ with ⟨o₂, f₂, y₂⟩ | ⟨e₂, o₂, f₂, y₂⟩ | ⟨vs₂', fr₂, o₂, f₂, n₂⟩ <;>
      rw [o₁] at o₂ <;> first | cases o₂ | skip
    · exact ⟨f₁.trans f₂.symm, y₁.trans y₂.symm⟩
    · exact ⟨f₁.trans f₂.symm, y₁.trans y₂.symm⟩
    · rw [← ho] at n₂
      have henv : environment enc (before ++ [s]) = {} := by simp [environment]
      obtain ⟨g1, g2⟩ := ih (before ++ [s]) (history₁ ++ [seen₁]) (history₂ ++ [seen₂]) _ _ _ _ _ _ _ _ _ (.next heard₁ hgs d₁) (.next heard₂ hgs d₃)
        (fun x hx => hg x (by simp [hx])) (by rw [henv]; exact n₁) (by rw [henv]; exact n₂)
      exact ⟨by rw [f₁, f₂, g1], g2⟩

/-- **C113.** The answers of the application to some requests (the `good` ones) are functions of what is sent (`Repeatable`). Two clients send well-formed requests of these which say the same (`SameSaid`), one after another, but written in different ways and cut into pieces in different ways; writing to them has the
same results. Then the server writes the same bytes to both, by the same calls of `Write`, and serving ends in the same way. -/
theorem C113_same_said (E : Setup σ ρ) (dec : DecodesChunked E.P) (cfg : Config) (size : cfg.bodyMaxSize < 2 ^ 64) (enc : EncToken) (remote : Bytes) (st : ρ)
    (tame : Tame E st) (reply : List Sending → Sending → Fields) (good : Sending → Prop)
    (rep : Repeatable E (fun s => SendableWith E.F cfg s ∧ good s) cfg.maxEncodingTokens.toNat enc remote st reply)
    (spellings : List (Sending × Sending)) (ok : ∀ x ∈ spellings, (SendableWith E.F cfg x.1 ∧ good x.1) ∧ (SendableWith E.F cfg x.2 ∧ good x.2) ∧ SameSaid x.1 x.2)
    (cl₁ cl₂ : Client) (quiet₁ : Quiet cl₁) (quiet₂ : Quiet cl₂) (writes : cl₁.wscript = cl₂.wscript)
    (post₁ post₂ : List (Bytes × Option GoErr)) (silent₁ : Silent post₁) (silent₂ : Silent post₂)
    (stream₁ : cl₁.stream = spellings.flatMap (fun x => x.1.bytes)) (stream₂ : cl₂.stream = spellings.flatMap (fun x => x.2.bytes)) :
    ∃ frames why,
      (serve E (newConn E.P cfg enc remote st (followedBy cl₁ post₁))).1.client.written = cl₁.written ++ frames ∧
      (serve E (newConn E.P cfg enc remote st (followedBy cl₂ post₂))).1.client.written = cl₂.written ++ frames ∧
      (serve E (newConn E.P cfg enc remote st (followedBy cl₁ post₁))).2 = some why ∧
      (serve E (newConn E.P cfg enc remote st (followedBy cl₂ post₂))).2 = some why := by
  have ok₁ : ∀ s ∈ spellings.map Prod.fst, SendableWith E.F cfg s := by
    intro s hs
    obtain ⟨x, hx, rfl⟩ := List.mem_map.1 hs
    exact (ok x hx).1.1
  have ok₂ : ∀ s ∈ spellings.map Prod.snd, SendableWith E.F cfg s := by
    intro s hs
    obtain ⟨x, hx, rfl⟩ := List.mem_map.1 hs
    exact (ok x hx).2.1.1
  obtain ⟨c₁, why₁, vs₁, frames₁, h1, _, h2, h3⟩ := C22_pipelining E dec cfg size enc remote st tame cl₁ quiet₁ post₁ silent₁ (spellings.map Prod.fst) ok₁ (by rw [stream₁, List.flatMap_map])
  obtain ⟨c₂, why₂, vs₂, frames₂, k1, _, k2, k3⟩ := C22_pipelining E dec cfg size enc remote st tame cl₂ quiet₂ post₂ silent₂ (spellings.map Prod.snd) ok₂ (by rw [stream₂, List.flatMap_map])
  rw [writes] at h3
  obtain ⟨e1, e2⟩ := conversation_said rep spellings [] [] [] _ _ _ _ _ _ _ _ _ .none .none (fun x hx => ⟨(ok x hx).1, (ok x hx).2.1, (ok x hx).2.2, (ok x hx).1.1.path⟩)
    (by simpa [environment, routerAfter] using h3) (by simpa [environment, routerAfter] using k3)
  refine ⟨frames₁, why₁, by rw [h1]; exact h2, by rw [k1, e1]; exact k2, by rw [h1], by rw [k1, e2]⟩

/-- **C113**, for applications of two functions: a handler which answers with a function of what the request says and, if it likes, of the whole body, and an error handler which does not panic and does not hijack the connection when it is told that the connection is being closed. -/
theorem C113_two_functions (E : Setup σ (Simple.Router Act)) (dec : DecodesChunked E.P) (router : E.router = Simple.impl Act) (cfg : Config) (size : cfg.bodyMaxSize < 2 ^ 64)
    (alloc : cfg.bodyMaxSize.toNat ≤ E.maxAlloc) (large : E.maxAlloc < 2 ^ 63) (enc : EncToken) (remote : Bytes) (g : Request → Asking) (errHandler : Router.Handler Act)
    (closing : ∀ (seen : Request) (world : Act.World σ), world.hijacked = false → ((errHandler { seen with Env := { seen.Env with Error := some closeError } }).run E.P E.maxAlloc world).1.isSome ∧
      ((errHandler { seen with Env := { seen.Env with Error := some closeError } }).run E.P E.maxAlloc world).2.hijacked = false)
    (spellings : List (Sending × Sending)) (ok : ∀ x ∈ spellings, SendableWith E.F cfg x.1 ∧ SendableWith E.F cfg x.2 ∧ SameSaid x.1 x.2)
    (cl₁ cl₂ : Client) (quiet₁ : Quiet cl₁) (quiet₂ : Quiet cl₂) (writes : cl₁.wscript = cl₂.wscript)
    (post₁ post₂ : List (Bytes × Option GoErr)) (silent₁ : Silent post₁) (silent₂ : Silent post₂)
    (stream₁ : cl₁.stream = spellings.flatMap (fun x => x.1.bytes)) (stream₂ : cl₂.stream = spellings.flatMap (fun x => x.2.bytes)) :
    ∃ frames why,
      (serve E (newConn E.P cfg enc remote ⟨handlerOf g, errHandler⟩ (followedBy cl₁ post₁))).1.client.written = cl₁.written ++ frames ∧
      (serve E (newConn E.P cfg enc remote ⟨handlerOf g, errHandler⟩ (followedBy cl₂ post₂))).1.client.written = cl₂.written ++ frames ∧
      (serve E (newConn E.P cfg enc remote ⟨handlerOf g, errHandler⟩ (followedBy cl₁ post₁))).2 = some why ∧
      (serve E (newConn E.P cfg enc remote ⟨handlerOf g, errHandler⟩ (followedBy cl₂ post₂))).2 = some why := by
  obtain ⟨tame, reply, rep⟩ := functions_repeatable router alloc large enc remote g errHandler closing
  exact C113_same_said E dec cfg size enc remote _ tame reply (fun _ => True) rep spellings (fun x hx => ⟨⟨(ok x hx).1, trivial⟩, ⟨(ok x hx).2.1, trivial⟩, (ok x hx).2.2⟩)
    cl₁ cl₂ quiet₁ quiet₂ writes post₁ post₂ silent₁ silent₂ stream₁ stream₂

open Indigo.Router Indigo.Spec.Router in
/-- **C113**, for any program of the built-in router whose handlers answer with functions of what the request says and of the whole body (`Determined`), do not hijack the connection and leave some fields of the request alone (the rest as in `C110_program`). Two clients send well-formed requests which say the same,
written and cut into pieces in different ways; writing to them has the same results. Then the server writes the same bytes to both, and serving ends in the same way. -/
theorem C113_program {text : GoErr → Bytes} {env : Env Act} {rt : Runtime Act} (E : Setup σ (Runtime Act)) (dec : DecodesChunked E.P) (router : E.router = Router.impl E.F .panic) (cfg : Config) (size : cfg.bodyMaxSize < 2 ^ 64)
    (alloc : cfg.bodyMaxSize.toNat ≤ E.maxAlloc) (large : E.maxAlloc < 2 ^ 63) (enc : EncToken) (remote : Bytes)
    (ops : List (Op Act)) (made : make E.F text env ops = some rt)
    (mutators : ∀ r, Untouched r (mutated ops r)) (paths : ∀ r : Request, r.Path ≠ [] → (mutated ops r).Path ≠ [])
    (respect : ∀ r r', contents r = contents r' → contents (mutated ops r) = contents (mutated ops r'))
    (polite : AllHandlers E.F text ops (Polite E)) (determined : AllHandlers E.F text ops (Determined E))
    (closing : ∀ h r (world : Act.World σ), handlerFor E.F text ops Status.ErrCloseConnection.Code = some h → world.hijacked = false →
      ((h (failing r closeError)).run E.P E.maxAlloc world).1.isSome)
    (spellings : List (Sending × Sending)) (ok : ∀ x ∈ spellings, SendableWith E.F cfg x.1 ∧ SendableWith E.F cfg x.2 ∧ SameSaid x.1 x.2)
    (cl₁ cl₂ : Client) (quiet₁ : Quiet cl₁) (quiet₂ : Quiet cl₂) (writes : cl₁.wscript = cl₂.wscript)
    (post₁ post₂ : List (Bytes × Option GoErr)) (silent₁ : Silent post₁) (silent₂ : Silent post₂)
    (stream₁ : cl₁.stream = spellings.flatMap (fun x => x.1.bytes)) (stream₂ : cl₂.stream = spellings.flatMap (fun x => x.2.bytes)) :
    ∃ frames why,
      (serve E (newConn E.P cfg enc remote rt (followedBy cl₁ post₁))).1.client.written = cl₁.written ++ frames ∧
      (serve E (newConn E.P cfg enc remote rt (followedBy cl₂ post₂))).1.client.written = cl₂.written ++ frames ∧
      (serve E (newConn E.P cfg enc remote rt (followedBy cl₁ post₁))).2 = some why ∧
      (serve E (newConn E.P cfg enc remote rt (followedBy cl₂ post₂))).2 = some why := by
  have tame : Tame E rt := program_tame router made mutators polite
  obtain ⟨reply, rep⟩ := program_repeatable router alloc large enc remote made mutators paths respect polite determined closing
  exact C113_same_said E dec cfg size enc remote _ tame reply (fun _ => True) rep spellings (fun x hx => ⟨⟨(ok x hx).1, trivial⟩, ⟨(ok x hx).2.1, trivial⟩, (ok x hx).2.2⟩)
    cl₁ cl₂ quiet₁ quiet₂ writes post₁ post₂ silent₁ silent₂ stream₁ stream₂

open Indigo.Router Indigo.Spec.Router Indigo.Spec.Virtual in
/-- **C113**, for several programs behind virtual hosts (`TenantSame` says what is asked of them). There are only letters, digits, `-`, `.` and `:` in the names of headers and in hosts. -/
theorem C113_hosts {text : GoErr → Bytes} (E : Setup σ (Virtual.Runtime (Runtime Act))) (dec : DecodesChunked E.P) (router : E.router = Virtual.impl E.F (Router.impl E.F .panic)) (cfg : Config)
    (size : cfg.bodyMaxSize < 2 ^ 64) (alloc : cfg.bodyMaxSize.toNat ≤ E.maxAlloc) (large : E.maxAlloc < 2 ^ 63) (enc : EncToken) (remote : Bytes)
    (vops : List (Virtual.Op Tenant)) (tenants : ∀ t, Registered vops t → TenantSame E text t) (plainHosts : ∀ e ∈ hostsRegistered vops, ∀ c ∈ e.1, HostChar c)
    (spellings : List (Sending × Sending))
    (ok : ∀ x ∈ spellings, (SendableWith E.F cfg x.1 ∧ PlainHead x.1.head) ∧ (SendableWith E.F cfg x.2 ∧ PlainHead x.2.head) ∧ SameSaid x.1 x.2)
    (cl₁ cl₂ : Client) (quiet₁ : Quiet cl₁) (quiet₂ : Quiet cl₂) (writes : cl₁.wscript = cl₂.wscript)
    (post₁ post₂ : List (Bytes × Option GoErr)) (silent₁ : Silent post₁) (silent₂ : Silent post₂)
    (stream₁ : cl₁.stream = spellings.flatMap (fun x => x.1.bytes)) (stream₂ : cl₂.stream = spellings.flatMap (fun x => x.2.bytes)) :
    ∃ frames why,
      (serve E (newConn E.P cfg enc remote (Virtual.initRouter Tenant.router (Virtual.build vops)) (followedBy cl₁ post₁))).1.client.written = cl₁.written ++ frames ∧
      (serve E (newConn E.P cfg enc remote (Virtual.initRouter Tenant.router (Virtual.build vops)) (followedBy cl₂ post₂))).1.client.written = cl₂.written ++ frames ∧
      (serve E (newConn E.P cfg enc remote (Virtual.initRouter Tenant.router (Virtual.build vops)) (followedBy cl₁ post₁))).2 = some why ∧
      (serve E (newConn E.P cfg enc remote (Virtual.initRouter Tenant.router (Virtual.build vops)) (followedBy cl₂ post₂))).2 = some why := by
  obtain ⟨reply, rep⟩ := hosts_repeatable router alloc large enc remote vops tenants plainHosts
  exact C113_same_said E dec cfg size enc remote _ (virtual_tame router tenants) reply (fun s => PlainHead s.head) rep spellings ok cl₁ cl₂ quiet₁ quiet₂ writes post₁ post₂ silent₁ silent₂ stream₁ stream₂

/-! ### The hypotheses are met -/

/-- `posted`, written in another way. -/
def postedToo : Sending where
  head := { method := .POST, target := b!"/%61", query := some [], version := b!"HTTP/1.1", crlf := false,
            fields := [⟨b!"content-LENGTH", 3, b!"05", false⟩], lastCrlf := false }
  path := b!"/a"
  body := b!"hello"
  coded := b!"hello"

/-- `chunked`, written in another way. -/
def chunkedToo : Sending where
  head := { method := .POST, target := b!"%2fb%20%63", query := none, version := b!"HTTP/1.1", crlf := true,
            fields := [⟨b!"transfer-encoding", 2, b!"chunked", false⟩], lastCrlf := true }
  path := b!"/b c"
  body := b!"hello"
  coded := b!"05\r\nhello\r\n00\r\n\r\n"

example : postedToo.bytes = b!"POST /%61? HTTP/1.1\ncontent-LENGTH:   05\n\nhello" := by decide
example : chunkedToo.bytes = b!"POST %2fb%20%63 HTTP/1.1\r\ntransfer-encoding:  chunked\n\r\n05\r\nhello\r\n00\r\n\r\n" := by decide

theorem postedToo_ok : SendableWith Fold.ascii Config.default postedToo where
  ok := ⟨by decide, by decide, by intro q h; cases h; decide, ⟨⟨_, 46, .inr (.inl ⟨rfl, rfl⟩)⟩, by decide, by decide⟩, by
    simp only [postedToo, List.mem_singleton, forall_eq]
    exact ⟨by decide, by decide, by decide, by decide, by decide, fun _ => by decide⟩⟩
  clean := by unfold Head.CleanNames; decide
  noBareEmpty := by unfold Head.NoBareEmpty; decide
  fits := ⟨by decide +kernel, by decide +kernel, by decide +kernel, by decide +kernel, by decide +kernel⟩
  path := .lit (by decide) (.esc .nil)
  framed := .sized (by decide +kernel) rfl (by decide)
  body := by decide +kernel

theorem chunkedToo_ok : SendableWith Fold.ascii Config.default chunkedToo where
  ok := ⟨by decide, by decide, by simp [chunkedToo], ⟨⟨_, 46, .inr (.inl ⟨rfl, rfl⟩)⟩, by decide, by decide⟩, by
    simp only [chunkedToo, List.mem_singleton, forall_eq]
    exact ⟨by decide, by decide, by decide, by decide, by decide, by decide⟩⟩
  clean := by unfold Head.CleanNames; decide
  noBareEmpty := by unfold Head.NoBareEmpty; decide
  fits := ⟨by decide +kernel, by decide +kernel, by decide +kernel, by decide +kernel, by decide +kernel⟩
  path := .esc (.lit (by decide) (.esc (.esc .nil)))
  framed := .chunked [b!"hello"] (by decide +kernel) (.chunk (ds := b!"05") (by decide) (by decide) (.last (ds := b!"00") (by decide))) rfl
  body := by decide +kernel

theorem spelled_ok : ∀ x ∈ [(posted, postedToo), (chunked, chunkedToo)], SendableWith Fold.ascii Config.default x.1 ∧ SendableWith Fold.ascii Config.default x.2 ∧ SameSaid x.1 x.2 := by
  intro x hx
  simp only [List.mem_cons, List.not_mem_nil, or_false] at hx
  rcases hx with rfl | rfl
  · exact ⟨posted_ok, postedToo_ok, rfl, rfl, rfl, fun _ => Iff.rfl, by decide +kernel, by decide +kernel, rfl⟩
  · exact ⟨chunked_ok, chunkedToo_ok, rfl, rfl, rfl, fun _ => Iff.rfl, by decide +kernel, by decide +kernel, rfl⟩

open Indigo.Router Indigo.Spec.Router in
set_option maxRecDepth 200000 in
/-- C113: a program, and two requests, each written in two ways. -/
example : ∃ rt cl₁ cl₂, make dinerSetup.F (fun _ => []) sampleEnv copier = some rt ∧
    (∀ r, Untouched r (mutated copier r)) ∧ (∀ r : Request, r.Path ≠ [] → (mutated copier r).Path ≠ []) ∧
    (∀ r r', contents r = contents r' → contents (mutated copier r) = contents (mutated copier r')) ∧
    AllHandlers dinerSetup.F (fun _ => []) copier (Polite dinerSetup) ∧ AllHandlers dinerSetup.F (fun _ => []) copier (Determined dinerSetup) ∧
    (∀ h r (world : Act.World CS), handlerFor dinerSetup.F (fun _ => []) copier Status.ErrCloseConnection.Code = some h → world.hijacked = false →
      ((h (failing r closeError)).run dinerSetup.P dinerSetup.maxAlloc world).1.isSome) ∧
    (∀ x ∈ [(posted, postedToo), (chunked, chunkedToo)], SendableWith dinerSetup.F Config.default x.1 ∧ SendableWith dinerSetup.F Config.default x.2 ∧ SameSaid x.1 x.2) ∧
    Quiet cl₁ ∧ Quiet cl₂ ∧ cl₁.wscript = cl₂.wscript ∧ Silent [] ∧
    cl₁.stream = [(posted, postedToo), (chunked, chunkedToo)].flatMap (fun x => x.1.bytes) ∧ cl₂.stream = [(posted, postedToo), (chunked, chunkedToo)].flatMap (fun x => x.2.bytes) ∧
    cl₁.stream ≠ cl₂.stream ∧
    (readAnswers [.POST, .POST]
      (serve dinerSetup (newConn dinerSetup.P Config.default 1 b!"1.2.3.4" rt (followedBy cl₂ []))).1.client.written.flatten).map
      (List.map (fun a => (a.1.isSome, a.2.code, a.2.rest))) = some [(false, 200, b!"teahello"), (false, 200, b!"souphello")] := by
  refine ⟨(make dinerSetup.F (fun _ => []) sampleEnv copier).get copier_made, arrive [posted.bytes ++ chunked.bytes],
    arrive [postedToo.bytes.take 3, postedToo.bytes.drop 3 ++ chunkedToo.bytes.take 60, chunkedToo.bytes.drop 60],
    by simp, copier_ok.1, copier_ok.2.1, copier_ok.2.2.1, copier_ok.2.2.2.1, copier_ok.2.2.2.2.1, copier_ok.2.2.2.2.2, spelled_ok,
    by unfold Quiet; decide +kernel, by unfold Quiet; decide +kernel, rfl, ?_, by decide +kernel, by decide +kernel, by decide +kernel, by decide +kernel⟩
  intro r hr; cases hr

/-- C113 for two functions: a handler which answers with the path and the body, and one for errors which answers with the path. -/
example : ∃ cl₁ cl₂,
    (∀ (seen : Request) (world : Act.World CS), world.hijacked = false →
      (((fun r => pure (Fields.new.bytes r.Path, r) : Router.Handler Act) { seen with Env := { seen.Env with Error := some closeError } }).run simple.P simple.maxAlloc world).1.isSome ∧
      (((fun r => pure (Fields.new.bytes r.Path, r) : Router.Handler Act) { seen with Env := { seen.Env with Error := some closeError } }).run simple.P simple.maxAlloc world).2.hijacked = false) ∧
    (∀ x ∈ [(posted, postedToo), (chunked, chunkedToo)], SendableWith simple.F Config.default x.1 ∧ SendableWith simple.F Config.default x.2 ∧ SameSaid x.1 x.2) ∧
    Quiet cl₁ ∧ Quiet cl₂ ∧ cl₁.wscript = cl₂.wscript ∧
    Config.default.bodyMaxSize.toNat ≤ simple.maxAlloc ∧ simple.maxAlloc < 2 ^ 63 ∧
    cl₁.stream = [(posted, postedToo), (chunked, chunkedToo)].flatMap (fun x => x.1.bytes) ∧ cl₂.stream = [(posted, postedToo), (chunked, chunkedToo)].flatMap (fun x => x.2.bytes) ∧
    (readAnswers [.POST, .POST]
      (serve simple (newConn simple.P Config.default 1 b!"1.2.3.4"
        ⟨handlerOf (fun r => .whole (fun d _ => Fields.new.bytes (r.Path ++ d.getD []))), fun r => pure (Fields.new.bytes r.Path, r)⟩ (followedBy cl₂ []))).1.client.written.flatten).map
      (List.map (fun a => (a.1.isSome, a.2.code, a.2.rest))) = some [(false, 200, b!"/ahello"), (false, 200, b!"/b chello")] := by
  exact ⟨arrive [posted.bytes ++ chunked.bytes], arrive [postedToo.bytes.take 3, postedToo.bytes.drop 3 ++ chunkedToo.bytes.take 60, chunkedToo.bytes.drop 60],
    fun seen world h => ⟨rfl, h⟩, spelled_ok, by unfold Quiet; decide +kernel, by unfold Quiet; decide +kernel, rfl, by decide, by decide, by decide +kernel, by decide +kernel, by decide +kernel⟩

/-- `calling`, written in another way. -/
def callingToo (m : Method) (host : Bytes) : Sending where
  head := { method := m, target := b!"%2F", query := some [], version := b!"HTTP/1.1", crlf := false, fields := [⟨b!"Host", 0, host, false⟩], lastCrlf := true }
  path := b!"/"
  body := []
  coded := []

open Indigo.Spec.Virtual in
theorem callingToo_ok (c : Method × Bytes) (h : c ∈ calls) :
    SendableWith Fold.ascii Config.default (callingToo c.1 c.2) ∧ PlainHead (callingToo c.1 c.2).head := by
  have fields : ∀ f ∈ (callingToo c.1 c.2).head.fields, f.OK := by
    intro f hf
    have : ∀ c ∈ calls, 10 ∉ c.2 ∧ c.2.head? ≠ some 32 ∧ c.2.getLast? ≠ some 13 := by decide
    obtain ⟨h1, h2, h3⟩ := this c h
    cases List.mem_singleton.1 hf
    exact ⟨by simp, by simp, h1, h2, fun _ => h3, fun h => absurd h (show ¬ (lower b!"Host" == b!"content-length") = true by decide)⟩
  simp only [calls, List.mem_cons, List.not_mem_nil, or_false] at h
  rcases h with rfl | rfl | rfl | rfl
  all_goals
    exact ⟨⟨⟨by decide, by decide, by intro q h; cases h; decide, ⟨⟨_, 46, .inr (.inl ⟨rfl, rfl⟩)⟩, by decide, by decide⟩, fields⟩,
      by unfold Head.CleanNames; decide, by unfold Head.NoBareEmpty; decide,
      ⟨by decide +kernel, by decide +kernel, by decide +kernel, by decide +kernel, by decide +kernel⟩, .esc .nil,
      .sized (by decide +kernel) rfl (by decide), by decide +kernel⟩,
      by unfold HostChar; decide +kernel, by unfold HostChar; decide +kernel⟩

/-- The requests of the example, each written in two ways. -/
def callings : List (Sending × Sending) := calls.map (fun c => (calling c.1 c.2, callingToo c.1 c.2))

open Indigo.Router Indigo.Spec.Router Indigo.Spec.Virtual in
set_option maxRecDepth 200000 in
/-- C113 for virtual hosts: four requests for two hosts, each written in two ways; this is what is written to both clients. -/
example : (∀ t, Registered village t → TenantSame streetSetup (fun _ => []) t) ∧ (∀ e ∈ hostsRegistered village, ∀ c ∈ e.1, HostChar c) ∧
    (∀ x ∈ callings, (SendableWith streetSetup.F Config.default x.1 ∧ PlainHead x.1.head) ∧ (SendableWith streetSetup.F Config.default x.2 ∧ PlainHead x.2.head) ∧ SameSaid x.1 x.2) ∧
    ∃ cl₁ cl₂ : Client, Quiet cl₁ ∧ Quiet cl₂ ∧ cl₁.wscript = cl₂.wscript ∧ cl₁.stream = callings.flatMap (fun x => x.1.bytes) ∧
      cl₂.stream = callings.flatMap (fun x => x.2.bytes) ∧ cl₁.stream ≠ cl₂.stream ∧
      (readAnswers [.TRACE, .TRACE, .POST, .TRACE]
        (serve streetSetup (newConn streetSetup.P Config.default 1 b!"1.2.3.4" (Virtual.initRouter Tenant.router (Virtual.build village)) (followedBy cl₂ []))).1.client.written.flatten).map
        (List.map (fun a => (a.2.code, a.2.rest))) =
        some [(200, b!"TRACE / HTTP/1.1\r\nHost: a.com\r\nContent-Length: 0\r\n\r\n"), (200, b!"TRACE / HTTP/1.1\r\nHost: B.org\r\nContent-Length: 0\r\n\r\n"), (200, b!"not A"),
          (200, b!"TRACE / HTTP/1.1\r\nHost: a.com\r\nContent-Length: 0\r\n\r\nTRACE / HTTP/1.1\r\nHost: A.com\r\nContent-Length: 0\r\n\r\n")] := by
  refine ⟨fun t ht => (village_same t ht).1, village_ok.2.1, ?_,
    arrive [callings.flatMap (fun x => x.1.bytes)], arrive [(callings.flatMap (fun x => x.2.bytes)).take 7, (callings.flatMap (fun x => x.2.bytes)).drop 7],
    by unfold Quiet; decide +kernel, by unfold Quiet; decide +kernel, rfl, by decide +kernel, by decide +kernel, by decide +kernel, by decide +kernel⟩
  intro x hx
  obtain ⟨c, hc, rfl⟩ := List.mem_map.1 hx
  exact ⟨calling_ok c hc, callingToo_ok c hc, rfl, rfl, rfl, fun _ => Iff.rfl, by simp [calling, callingToo, Field.isLength, Field.named, lower], by simp [calling, callingToo, Head.lengthDigits, Field.isLength, Field.named, lower], rfl⟩

end Indigo.Props
