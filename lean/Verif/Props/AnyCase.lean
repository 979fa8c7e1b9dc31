/-
C114: the letter case of the names of headers makes no difference.
-/
import Verif.Spec.AnyCase
import Verif.Props.Spelling
import Verif.Props.Reuse
import Verif.Proofs.RouterCase

namespace Indigo.Props
open Indigo.Serve Indigo.Spec Indigo.Serializer
variable {σ ρ : Type}

theorem last_lower {n : Bytes} (hn : n ≠ b!"content-length") (h : Head) :
    h.last n = ((((h.fields.filter (fun f => !f.isLength)).map (fun f => (lower f.name, f.value))).filter (fun p => p.1 == n)).getLast?).map Prod.snd := by
  rw [last_fields hn, List.filter_map, List.filter_map, List.getLast?_map, List.getLast?_map, Option.map_map, Option.map_map]
  rfl

/-- What is delivered for requests which say the same but for the letter case of names of headers. -/
theorem delivered_alike {E : Setup σ ρ} {T : Nat} {remote : Bytes} {post post' : List (Bytes × Option GoErr)} {env s s' after after' seen seen' world world'} (hs : AlikeSaid s s')
    (path : Unescapes s'.head.target s'.path) (h : Delivered E T remote post env s after seen world) (h' : Delivered E T remote post' env s' after' seen' world') : folded seen = folded seen' := by
  have hpairs : seen.Headers.pairs.map (fun p => (lower p.Key, p.Value)) = seen'.Headers.pairs.map (fun p => (lower p.Key, p.Value)) := by
    have := hs.fields
    rw [h.carries.headers, h'.carries.headers, List.map_map, List.map_map]
    exact this
  refine Router.folded_iff.2 ⟨?_, hpairs⟩
  have h'h := h'.carries.headers
  obtain ⟨c, h1, h2, h3, h4, h5, h6, h7, h8⟩ := h
  have l : ∀ {n : Bytes}, n ≠ b!"content-length" → s.head.last n = s'.head.last n := fun hn => by rw [last_lower hn, last_lower hn, hs.fields]
  refine delivered_unique (s := s') (env := env) (after := after) (world := world) (E := E) (T := T) (remote := remote) (post := post) ?_ h'
  refine ⟨⟨c.method.trans hs.method, ?_, ⟨c.query.1.trans hs.query, c.query.2⟩, (hs.version _).1 c.proto, h'h, ?_, ?_, ?_, ?_, ?_, ?_, ?_, c.chunked⟩, h1.trans hs.path, h2, h3, h4, h5, h6, h7, ?_⟩
  · intro p hp
    show seen.Path = p
    rw [h1, hs.path]
    exact Parser.unescapes_unique path hp
  · exact c.contentLength.trans (by rw [hs.length])
  · exact c.connection.trans (by rw [l (by decide)])
  · exact c.contentType.trans (by rw [l (by decide)])
  · exact c.upgrade.trans (by rw [l (by decide)])
  · exact c.trailer.trans (by rw [l (by decide)])
  · exact c.content.trans (by rw [l (by decide)])
  · exact c.transfer.trans (by rw [l (by decide)])
  · rw [← hs.body]; exact h8

/-- Two conversations about requests to which the same is answered. -/
theorem conversation_alike {E : Setup σ ρ} {T : Nat} {remote : Bytes} {post₁ post₂ : List (Bytes × Option GoErr)} {good : Sending → Prop} {enc : EncToken} {st0 : ρ}
    {reply : List Sending → Sending → Fields} (rep : Repeatable E good T enc remote st0 reply) (whole : List (Sending × Sending))
    (hg : ∀ x ∈ whole, good x.1 ∧ good x.2 ∧ AlikeSaid x.1 x.2 ∧ Unescapes x.2.head.target x.2.path)
    (same : ∀ done x rest, whole = done ++ x :: rest → ∀ history₁ after₁ seen₁ world₁ history₂ after₂ seen₂ world₂,
      HeardSo E good T enc remote post₁ (done.map Prod.fst) history₁ → Delivered E T remote post₁ (environment enc (done.map Prod.fst)) x.1 after₁ seen₁ world₁ →
      HeardSo E good T enc remote post₂ (done.map Prod.snd) history₂ → Delivered E T remote post₂ (environment enc (done.map Prod.snd)) x.2 after₂ seen₂ world₂ →
      reply (done.map Prod.fst) x.1 = reply (done.map Prod.snd) x.2) :
    ∀ (spellings done : List (Sending × Sending)), whole = done ++ spellings → ∀ (history₁ history₂ : List Request) d pre ws vs₁ vs₂ frames₁ frames₂ why₁ why₂,
    HeardSo E good T enc remote post₁ (done.map Prod.fst) history₁ → HeardSo E good T enc remote post₂ (done.map Prod.snd) history₂ →
    Conversation E T remote [] post₁ (Silence E) (environment enc (done.map Prod.fst)) (routerAfter E st0 history₁) d pre ws (spellings.map Prod.fst) vs₁ frames₁ why₁ →
    Conversation E T remote [] post₂ (Silence E) (environment enc (done.map Prod.snd)) (routerAfter E st0 history₂) d pre ws (spellings.map Prod.snd) vs₂ frames₂ why₂ →
    frames₁ = frames₂ ∧ why₁ = why₂ := by
  intro spellings
  induction spellings with
  | nil =>
    intro done _ history₁ history₂ d pre ws vs₁ vs₂ frames₁ frames₂ why₁ why₂ heard₁ heard₂ h₁ h₂
    obtain ⟨a1, a2⟩ := conversation_end rep h₁
    obtain ⟨b1, b2⟩ := conversation_end rep h₂
    exact ⟨a1.trans b1.symm, a2.trans b2.symm⟩
  | cons x spellings ih =>
    intro done hwhole history₁ history₂ d pre ws vs₁ vs₂ frames₁ frames₂ why₁ why₂ heard₁ heard₂ h₁ h₂
    obtain ⟨hg₁, hg₂, alike, path⟩ := hg x (by rw [hwhole]; simp)
    obtain ⟨seen₁, world₁, after₁, w₁, d₁, hw₁, c₁⟩ := conversation_step rep heard₁ rfl hg₁ h₁
    obtain ⟨seen₂, world₂, after₂, w₂, d₂, hw₂, c₂⟩ := conversation_step rep heard₂ rfl hg₂ h₂
    have hreply := same done x spellings hwhole _ _ _ _ _ _ _ _ heard₁ d₁ heard₂ d₂
    have henv : environment enc (done.map Prod.snd) = environment enc (done.map Prod.fst) := by cases done <;> rfl
    rw [← hreply] at hw₂
    have hc := delivered_alike alike path d₁ (henv ▸ d₂)
    have hm : seen₁.Method = seen₂.Method := (congrArg Request.Method hc :)
    have hn : seen₁.Connection = seen₂.Connection := (congrArg Request.Connection hc :)
    have hu : seen₁.Upgrade = seen₂.Upgrade := (congrArg Request.Upgrade hc :)
    have hp : seen₁.Proto = seen₂.Proto := (congrArg Request.Proto hc :)
    have ho := opening_request E.F d pre hp hu
    have hw : w₁ = w₂ := by rw [hw₁, hw₂, ho]; exact write_request _ _ _ _ _ hm hn hu
    subst hw
    rcases c₁ with ⟨o₁, f₁, y₁⟩ | ⟨e₁, o₁, f₁, y₁⟩ | ⟨vs₁', fr₁, o₁, f₁, n₁⟩ <;> rcases c₂ with ⟨o₂, f₂, y₂⟩ | ⟨e₂, o₂, f₂, y₂⟩ | ⟨vs₂', fr₂, o₂, f₂, n₂⟩ <;>
      rw [o₁] at o₂ <;> first | cases o₂ | skip
    · exact ⟨f₁.trans f₂.symm, y₁.trans y₂.symm⟩
    · exact ⟨f₁.trans f₂.symm, y₁.trans y₂.symm⟩
    · rw [← ho] at n₂
      have henv₁ : environment enc ((done ++ [x]).map Prod.fst) = {} := by simp [environment]
      have henv₂ : environment enc ((done ++ [x]).map Prod.snd) = {} := by simp [environment]
      have heard₁' := HeardSo.next heard₁ hg₁ d₁
      have heard₂' := HeardSo.next heard₂ hg₂ d₂
      obtain ⟨g1, g2⟩ := ih (done ++ [x]) (by rw [hwhole]; simp) (history₁ ++ [seen₁]) (history₂ ++ [seen₂]) _ _ _ _ _ _ _ _ _
        (by simpa using heard₁') (by simpa using heard₂') (by rw [henv₁]; exact n₁) (by rw [henv₂]; exact n₂)
      exact ⟨by rw [f₁, f₂, g1], g2⟩

theorem alike_answers (E : Setup σ ρ) (dec : DecodesChunked E.P) (cfg : Config) (size : cfg.bodyMaxSize < 2 ^ 64) (enc : EncToken) (remote : Bytes) (st : ρ)
    (tame : Tame E st) (reply : List Sending → Sending → Fields) (good : Sending → Prop)
    (rep : Repeatable E (fun s => SendableWith E.F cfg s ∧ good s) cfg.maxEncodingTokens.toNat enc remote st reply)
    (spellings : List (Sending × Sending)) (ok : ∀ x ∈ spellings, (SendableWith E.F cfg x.1 ∧ good x.1) ∧ (SendableWith E.F cfg x.2 ∧ good x.2) ∧ AlikeSaid x.1 x.2)
    (same : ∀ done x rest, spellings = done ++ x :: rest → ∀ post₁ history₁ after₁ seen₁ world₁ post₂ history₂ after₂ seen₂ world₂,
      HeardSo E (fun s => SendableWith E.F cfg s ∧ good s) cfg.maxEncodingTokens.toNat enc remote post₁ (done.map Prod.fst) history₁ →
      Delivered E cfg.maxEncodingTokens.toNat remote post₁ (environment enc (done.map Prod.fst)) x.1 after₁ seen₁ world₁ →
      HeardSo E (fun s => SendableWith E.F cfg s ∧ good s) cfg.maxEncodingTokens.toNat enc remote post₂ (done.map Prod.snd) history₂ →
      Delivered E cfg.maxEncodingTokens.toNat remote post₂ (environment enc (done.map Prod.fst)) x.2 after₂ seen₂ world₂ →
      reply (done.map Prod.fst) x.1 = reply (done.map Prod.snd) x.2)
    (cl₁ cl₂ : Client) (quiet₁ : Quiet cl₁) (quiet₂ : Quiet cl₂) (writes : cl₁.wscript = cl₂.wscript)
    (post₁ post₂ : List (Bytes × Option GoErr)) (silent₁ : Silent post₁) (silent₂ : Silent post₂)
    (stream₁ : cl₁.stream = spellings.flatMap (fun x => x.1.bytes)) (stream₂ : cl₂.stream = spellings.flatMap (fun x => x.2.bytes)) :
    ∃ frames why,
      (serve E (newConn E.P cfg enc remote st (followedBy cl₁ post₁))).1.client.written = cl₁.written ++ frames ∧
      (serve E (newConn E.P cfg enc remote st (followedBy cl₂ post₂))).1.client.written = cl₂.written ++ frames ∧
      (serve E (newConn E.P cfg enc remote st (followedBy cl₁ post₁))).2 = some why ∧
      (serve E (newConn E.P cfg enc remote st (followedBy cl₂ post₂))).2 = some why := by
  have ok₁ : ∀ s ∈ spellings.map Prod.fst, SendableWith E.F cfg s := by
    intro s hs
    obtain ⟨x, hx, rfl⟩ := List.mem_map.1 hs
    exact (ok x hx).1.1
  have ok₂ : ∀ s ∈ spellings.map Prod.snd, SendableWith E.F cfg s := by
    intro s hs
    obtain ⟨x, hx, rfl⟩ := List.mem_map.1 hs
    exact (ok x hx).2.1.1
  obtain ⟨c₁, why₁, vs₁, frames₁, h1, _, h2, h3⟩ := C22_pipelining E dec cfg size enc remote st tame cl₁ quiet₁ post₁ silent₁ (spellings.map Prod.fst) ok₁ (by rw [stream₁, List.flatMap_map])
  obtain ⟨c₂, why₂, vs₂, frames₂, k1, _, k2, k3⟩ := C22_pipelining E dec cfg size enc remote st tame cl₂ quiet₂ post₂ silent₂ (spellings.map Prod.snd) ok₂ (by rw [stream₂, List.flatMap_map])
  rw [writes] at h3
  have henv : ∀ done : List (Sending × Sending), environment enc (done.map Prod.snd) = environment enc (done.map Prod.fst) := fun done => by cases done <;> rfl
  obtain ⟨e1, e2⟩ := conversation_alike rep spellings (fun x hx => ⟨(ok x hx).1, (ok x hx).2.1, (ok x hx).2.2, (ok x hx).2.1.1.path⟩)
    (fun done x rest hw _ _ _ _ _ _ _ _ a b c d => same done x rest hw _ _ _ _ _ _ _ _ _ _ a b c (henv done ▸ d)) spellings [] rfl [] [] _ _ _ _ _ _ _ _ _ .none .none
    (by simpa [environment, routerAfter] using h3) (by simpa [environment, routerAfter] using k3)
  refine ⟨frames₁, why₁, by rw [h1]; exact h2, by rw [k1, e1]; exact k2, by rw [h1], by rw [k1, e2]⟩

/-- **C114.** The answers of the application to some requests (the `good` ones) are functions of what is sent (`Repeatable`), and are the same for requests which differ in the letter case of names of headers. Two clients send well-formed requests of these which say the same but for the letter case of the names of headers
(`AlikeSaid`), one after another, written and cut into pieces in different ways; writing to them has the same results. Then the server writes the same bytes to both, by the same calls of `Write`, and serving ends in the same way: the framework itself looks at no name of a header in one case only. -/
theorem C114_any_case (E : Setup σ ρ) (dec : DecodesChunked E.P) (cfg : Config) (size : cfg.bodyMaxSize < 2 ^ 64) (enc : EncToken) (remote : Bytes) (st : ρ)
    (tame : Tame E st) (reply : List Sending → Sending → Fields) (good : Sending → Prop)
    (rep : Repeatable E (fun s => SendableWith E.F cfg s ∧ good s) cfg.maxEncodingTokens.toNat enc remote st reply)
    (spellings : List (Sending × Sending)) (ok : ∀ x ∈ spellings, (SendableWith E.F cfg x.1 ∧ good x.1) ∧ (SendableWith E.F cfg x.2 ∧ good x.2) ∧ AlikeSaid x.1 x.2)
    (blind : ∀ done x rest, spellings = done ++ x :: rest → reply (done.map Prod.fst) x.1 = reply (done.map Prod.snd) x.2)
    (cl₁ cl₂ : Client) (quiet₁ : Quiet cl₁) (quiet₂ : Quiet cl₂) (writes : cl₁.wscript = cl₂.wscript)
    (post₁ post₂ : List (Bytes × Option GoErr)) (silent₁ : Silent post₁) (silent₂ : Silent post₂)
    (stream₁ : cl₁.stream = spellings.flatMap (fun x => x.1.bytes)) (stream₂ : cl₂.stream = spellings.flatMap (fun x => x.2.bytes)) :
    ∃ frames why,
      (serve E (newConn E.P cfg enc remote st (followedBy cl₁ post₁))).1.client.written = cl₁.written ++ frames ∧
      (serve E (newConn E.P cfg enc remote st (followedBy cl₂ post₂))).1.client.written = cl₂.written ++ frames ∧
      (serve E (newConn E.P cfg enc remote st (followedBy cl₁ post₁))).2 = some why ∧
      (serve E (newConn E.P cfg enc remote st (followedBy cl₂ post₂))).2 = some why := by
  exact alike_answers E dec cfg size enc remote st tame reply good rep spellings ok (fun done x rest h _ _ _ _ _ _ _ _ _ _ _ _ _ _ => blind done x rest h)
    cl₁ cl₂ quiet₁ quiet₂ writes post₁ post₂ silent₁ silent₂ stream₁ stream₂

/-- **C114**, for lookups. Two storages with the same names and values in the same order, but for the letter case of the names: looking up a name, written in whichever case, gives the same in both: the first value, all values in order, and whether there is any. -/
theorem C114_lookups (F : Fold) (s s' : Storage) (alike : s.pairs.map (fun p => (lower p.Key, p.Value)) = s'.pairs.map (fun p => (lower p.Key, p.Value))) (k k' : Bytes) (hk : lower k = lower k') :
    s.get F k = s'.get F k' ∧ s.value F k = s'.value F k' ∧ (s.values F k).1 = (s'.values F k').1 ∧ s.has F k = s'.has F k' ∧ s.len = s'.len := by
  have fold : ∀ {a b a' b' : Bytes}, lower a = lower a' → lower b = lower b' → F.eq a b = F.eq a' b' := by
    intro a b a' b' h1 h2
    unfold Fold.eq
    rw [← F.map_lower a, ← F.map_lower b, ← F.map_lower a', ← F.map_lower b', h1, h2]
  have loops : ∀ (l l' : List Pair) acc, l.map (fun p => (lower p.Key, p.Value)) = l'.map (fun p => (lower p.Key, p.Value)) →
      Storage.getLoop F k l = Storage.getLoop F k' l' ∧ Storage.valuesLoop F k l acc = Storage.valuesLoop F k' l' acc ∧ Storage.hasLoop F k l = Storage.hasLoop F k' l' ∧ l.length = l'.length := by
    intro l
    induction l with
    | nil =>
      intro l' acc h
      cases l' with
      | nil => exact ⟨rfl, rfl, rfl, rfl⟩
      | cons => simp at h
    | cons p l ih =>
      intro l' acc h
      cases l' with
      | nil => simp at h
      | cons p' l' =>
        simp only [List.map_cons, List.cons.injEq, Prod.mk.injEq] at h
        obtain ⟨⟨h1, h2⟩, h3⟩ := h
        simp only [Storage.getLoop, Storage.valuesLoop, Storage.hasLoop, List.length_cons]
        rw [fold hk h1, fold h1 hk, h2]
        refine ⟨?_, (ih l' _ h3).2.1, ?_, by rw [(ih l' acc h3).2.2.2]⟩
        · rw [(ih l' acc h3).1]
        · rw [(ih l' acc h3).2.2.1]
  obtain ⟨h1, h2, h3, h4⟩ := loops s.pairs s'.pairs [] alike
  have hget : s.get F k = s'.get F k' := h1
  exact ⟨hget, by simp only [Storage.value, Storage.valueOr, hget], h2, h3, h4⟩

/-- **C114**, for applications of two functions: a handler which answers with a function of what the request says and, if it likes, of the whole body (`handlerOf`), but not of the letter case of names of headers; and an error handler which does not panic and does not hijack the connection when it is told that
the connection is being closed. -/
theorem C114_two_functions (E : Setup σ (Simple.Router Act)) (dec : DecodesChunked E.P) (router : E.router = Simple.impl Act) (cfg : Config) (size : cfg.bodyMaxSize < 2 ^ 64)
    (alloc : cfg.bodyMaxSize.toNat ≤ E.maxAlloc) (large : E.maxAlloc < 2 ^ 63) (enc : EncToken) (remote : Bytes) (g : Request → Asking) (errHandler : Router.Handler Act)
    (blind : ∀ r r' body, folded r = folded r' → (g r).given body = (g r').given body)
    (closing : ∀ (seen : Request) (world : Act.World σ), world.hijacked = false → ((errHandler { seen with Env := { seen.Env with Error := some closeError } }).run E.P E.maxAlloc world).1.isSome ∧
      ((errHandler { seen with Env := { seen.Env with Error := some closeError } }).run E.P E.maxAlloc world).2.hijacked = false)
    (spellings : List (Sending × Sending)) (ok : ∀ x ∈ spellings, SendableWith E.F cfg x.1 ∧ SendableWith E.F cfg x.2 ∧ AlikeSaid x.1 x.2)
    (cl₁ cl₂ : Client) (quiet₁ : Quiet cl₁) (quiet₂ : Quiet cl₂) (writes : cl₁.wscript = cl₂.wscript)
    (post₁ post₂ : List (Bytes × Option GoErr)) (silent₁ : Silent post₁) (silent₂ : Silent post₂)
    (stream₁ : cl₁.stream = spellings.flatMap (fun x => x.1.bytes)) (stream₂ : cl₂.stream = spellings.flatMap (fun x => x.2.bytes)) :
    ∃ frames why,
      (serve E (newConn E.P cfg enc remote ⟨handlerOf g, errHandler⟩ (followedBy cl₁ post₁))).1.client.written = cl₁.written ++ frames ∧
      (serve E (newConn E.P cfg enc remote ⟨handlerOf g, errHandler⟩ (followedBy cl₂ post₂))).1.client.written = cl₂.written ++ frames ∧
      (serve E (newConn E.P cfg enc remote ⟨handlerOf g, errHandler⟩ (followedBy cl₁ post₁))).2 = some why ∧
      (serve E (newConn E.P cfg enc remote ⟨handlerOf g, errHandler⟩ (followedBy cl₂ post₂))).2 = some why := by
  obtain ⟨tame, reply, rep⟩ := functions_repeatable router alloc large enc remote g errHandler closing
  refine alike_answers E dec cfg size enc remote _ tame reply (fun _ => True) rep spellings (fun x hx => ⟨⟨(ok x hx).1, trivial⟩, ⟨(ok x hx).2.1, trivial⟩, (ok x hx).2.2⟩) ?_
    cl₁ cl₂ quiet₁ quiet₂ writes post₁ post₂ silent₁ silent₂ stream₁ stream₂
  intro done x rest hw post₁ history₁ after₁ seen₁ world₁ post₂ history₂ after₂ seen₂ world₂ heard₁ del₁ heard₂ del₂
  obtain ⟨hs₁, hs₂, alike⟩ := ok x (by rw [hw]; simp)
  have henv : environment enc (done.map Prod.snd) = environment enc (done.map Prod.fst) := by cases done <;> rfl
  obtain ⟨q, left, a1, -⟩ := rep.request _ _ _ _ _ _ _ heard₁ ⟨hs₁, trivial⟩ del₁
  obtain ⟨q', left', a2, -⟩ := rep.request _ _ _ _ _ _ _ heard₂ ⟨hs₂, trivial⟩ (henv ▸ del₂)
  unfold Answers at a1 a2
  rw [functions_state router, router] at a1 a2
  obtain ⟨l, b1, -⟩ := handlerOf_run (delivered_holds alloc large hs₁ del₁) g seen₁
  obtain ⟨l', b2, -⟩ := handlerOf_run (delivered_holds alloc large hs₂ del₂) g seen₂
  have e1 := (congrArg Prod.fst a1).symm.trans (congrArg Prod.fst b1)
  have e2 := (congrArg Prod.fst a2).symm.trans (congrArg Prod.fst b2)
  simp only [Option.some.injEq, Prod.mk.injEq] at e1 e2
  rw [e1.1, e2.1, alike.body]
  have key := delivered_alike alike hs₂.path del₁ del₂
  exact blind (contents seen₁) (contents seen₂) _ key

/-- The handlers which are asked for less. -/
theorem caseBlind_determined {E : Setup σ ρ} {h : Router.Handler Act} (hb : CaseBlind E h) : Determined E h := by
  intro r r' w w' body hc
  refine hb r r' w w' body ?_
  unfold folded
  rw [hc, show r.Headers.pairs = r'.Headers.pairs from (congrArg (fun r : Request => r.Headers.pairs) hc :)]

/-- Asking for more of requests. -/
theorem repeatable_mono {E : Setup σ ρ} {good good' : Sending → Prop} {T : Nat} {enc : EncToken} {remote : Bytes} {st : ρ} {reply : List Sending → Sending → Fields}
    (h : ∀ s, good' s → good s) (rep : Repeatable E good T enc remote st reply) : Repeatable E good' T enc remote st reply := by
  have heard : ∀ {post before history}, HeardSo E good' T enc remote post before history → HeardSo E good T enc remote post before history := by
    intro post before history hh
    induction hh with
    | none => exact .none
    | next _ hg del ih => exact .next ih (h _ hg) del
  exact ⟨fun before history post s after seen world hh hg del => rep.request before history post s after seen world (heard hh) (h _ hg) del, rep.error⟩

open Indigo.Router Indigo.Spec.Router in
/-- **C114**, for programs of the built-in router. Its handlers answer with functions of what the request says and of the whole body, but not of the letter case of names of headers (`CaseBlind`), do not hijack the connection and leave some fields of the request alone;
what the mutators do depends on what the request says only, up to the letter case of names of headers, and they leave alone the same fields and do not make paths empty; the error handler which is called when the connection is being closed does not panic.
Two clients send well-formed requests, none of them TRACE (which is answered with the names as they were sent), which say the same but for the letter case of the names of headers, written and cut into pieces in different ways; writing to them has the same results. Then the server writes the same bytes to both, and serving ends in the same way. -/
theorem C114_program {text : GoErr → Bytes} {env : Env Act} {rt : Runtime Act} (E : Setup σ (Runtime Act)) (dec : DecodesChunked E.P) (router : E.router = Router.impl E.F .panic) (cfg : Config) (size : cfg.bodyMaxSize < 2 ^ 64)
    (alloc : cfg.bodyMaxSize.toNat ≤ E.maxAlloc) (large : E.maxAlloc < 2 ^ 63) (enc : EncToken) (remote : Bytes)
    (ops : List (Op Act)) (made : make E.F text env ops = some rt)
    (mutators : ∀ r, Untouched r (mutated ops r)) (paths : ∀ r : Request, r.Path ≠ [] → (mutated ops r).Path ≠ [])
    (respect : ∀ r r', contents r = contents r' → contents (mutated ops r) = contents (mutated ops r'))
    (respectCase : ∀ r r', folded r = folded r' → folded (mutated ops r) = folded (mutated ops r'))
    (polite : AllHandlers E.F text ops (Polite E)) (blind : AllHandlers E.F text ops (CaseBlind E))
    (closing : ∀ h r (world : Act.World σ), handlerFor E.F text ops Status.ErrCloseConnection.Code = some h → world.hijacked = false →
      ((h (failing r closeError)).run E.P E.maxAlloc world).1.isSome)
    (spellings : List (Sending × Sending)) (ok : ∀ x ∈ spellings, SendableWith E.F cfg x.1 ∧ SendableWith E.F cfg x.2 ∧ AlikeSaid x.1 x.2) (untraced : ∀ x ∈ spellings, x.1.head.method ≠ .TRACE)
    (cl₁ cl₂ : Client) (quiet₁ : Quiet cl₁) (quiet₂ : Quiet cl₂) (writes : cl₁.wscript = cl₂.wscript)
    (post₁ post₂ : List (Bytes × Option GoErr)) (silent₁ : Silent post₁) (silent₂ : Silent post₂)
    (stream₁ : cl₁.stream = spellings.flatMap (fun x => x.1.bytes)) (stream₂ : cl₂.stream = spellings.flatMap (fun x => x.2.bytes)) :
    ∃ frames why,
      (serve E (newConn E.P cfg enc remote rt (followedBy cl₁ post₁))).1.client.written = cl₁.written ++ frames ∧
      (serve E (newConn E.P cfg enc remote rt (followedBy cl₂ post₂))).1.client.written = cl₂.written ++ frames ∧
      (serve E (newConn E.P cfg enc remote rt (followedBy cl₁ post₁))).2 = some why ∧
      (serve E (newConn E.P cfg enc remote rt (followedBy cl₂ post₂))).2 = some why := by
  have tame : Tame E rt := program_tame router made mutators polite
  have determined : AllHandlers E.F text ops (Determined E) :=
    ⟨fun d hd => caseBlind_determined (blind.1 d hd), fun c hc => caseBlind_determined (blind.2.1 c hc), fun e he => caseBlind_determined (blind.2.2 e he)⟩
  obtain ⟨reply, rep0⟩ := program_repeatable (cfg := cfg) router alloc large enc remote made mutators paths respect polite determined closing
  have rep := repeatable_mono (good' := fun s => SendableWith E.F cfg s ∧ s.head.method ≠ .TRACE) (fun s hs => ⟨hs.1, trivial⟩) rep0
  have arrives : ∀ r, Untouched r (arriving ops r) := fun r => (mutators r).normalised _
  have notEmpty : ∀ {s : Sending} {post env after seen world}, SendableWith E.F cfg s → Delivered E cfg.maxEncodingTokens.toNat remote post env s after seen world →
      (arriving ops seen).Path ≠ [] := by
    intro s post env after seen world hs del h
    refine paths seen ?_ (normalize_empty h)
    rw [del.path]
    exact unescapes_ne hs.path hs.ok.target.1
  have state : ∀ {post before history}, HeardSo E (fun s => SendableWith E.F cfg s ∧ s.head.method ≠ .TRACE) cfg.maxEncodingTokens.toNat enc remote post before history → routerAfter E rt history = rt := by
    intro post before history h
    induction h with
    | none => rfl
    | @next before history s after seen world heard hg del ih =>
      rw [show routerAfter E rt (history ++ [seen]) = (E.router.onRequest (routerAfter E rt history) seen).2 by simp [routerAfter], ih, router]
      rcases request_known made (C41_always_one E.F text ops) rt.traceBuff seen with ⟨h, r, -, -, hr⟩ | ⟨h, -⟩ | ⟨h, -⟩
      · have hr : Runtime.onRequest E.F rt seen = some (h r, rt) := hr
        simp only [Router.impl, hr]
        rfl
      · rw [(arrives seen).method, del.carries.method] at h
        exact absurd h hg.2
      · exact absurd h (notEmpty hg.1 del)
  refine alike_answers E dec cfg size enc remote _ tame reply (fun s => s.head.method ≠ .TRACE) rep spellings
    (fun x hx => ⟨⟨(ok x hx).1, untraced x hx⟩, ⟨(ok x hx).2.1, by rw [← (ok x hx).2.2.method]; exact untraced x hx⟩, (ok x hx).2.2⟩) ?_
    cl₁ cl₂ quiet₁ quiet₂ writes post₁ post₂ silent₁ silent₂ stream₁ stream₂
  intro done x rest hw post₁ history₁ after₁ seen₁ world₁ post₂ history₂ after₂ seen₂ world₂ heard₁ del₁ heard₂ del₂
  have hx : x ∈ spellings := by rw [hw]; simp
  obtain ⟨hs₁, hs₂, alike⟩ := ok x hx
  have ht := untraced x hx
  have ht₂ : x.2.head.method ≠ .TRACE := by rw [← alike.method]; exact ht
  have henv : environment enc (done.map Prod.snd) = environment enc (done.map Prod.fst) := by cases done <;> rfl
  obtain ⟨q, left, a1, -⟩ := rep.request _ _ _ _ _ _ _ heard₁ ⟨hs₁, ht⟩ del₁
  obtain ⟨q', left', a2, -⟩ := rep.request _ _ _ _ _ _ _ heard₂ ⟨hs₂, ht₂⟩ (henv ▸ del₂)
  unfold Answers at a1 a2
  rw [state heard₁, router] at a1
  rw [state heard₂, router] at a2
  have holds₁ := delivered_holds alloc large hs₁ del₁
  have holds₂ := delivered_holds alloc large hs₂ del₂
  rw [← alike.body] at holds₂
  obtain ⟨h, ra, rb, hk, hf, k1, k2⟩ := request_case made (C41_always_one E.F text ops) respectCase rt.traceBuff seen₁ seen₂ (delivered_alike alike hs₂.path del₁ del₂)
    (by rw [(arrives seen₁).method, del₁.carries.method]; exact ht) (notEmpty hs₁ del₁)
  have k1 : Runtime.onRequest E.F rt seen₁ = some (h ra, rt) := k1
  simp only [Router.impl, k1] at a1
  obtain ⟨f, _, _, _, _, b1, b2⟩ := program_good blind hk ra rb _ _ _ hf holds₁ holds₂
  have e1 := (congrArg Prod.fst a1).symm.trans (congrArg Prod.fst b1)
  simp only [Option.some.injEq, Prod.mk.injEq] at e1
  rcases k2 with ⟨h', rc, rd, hk', hc, hrb, k2⟩ | ⟨f', x', y', hrb, k2⟩
  · have k2 : Runtime.onRequest E.F rt seen₂ = some (h' rd, rt) := k2
    simp only [Router.impl, k2] at a2
    obtain ⟨f₂, _, _, _, _, c1, c2⟩ := program_good determined hk' rc rd _ _ _ hc holds₂ holds₂
    rw [← hrb, b2] at c1
    have e2 := (congrArg Prod.fst a2).symm.trans (congrArg Prod.fst c2)
    simp only [Option.some.injEq, Prod.mk.injEq] at e2 c1
    rw [e1.1, e2.1, c1.1.1]
  · have k2 : Runtime.onRequest E.F rt seen₂ = some (pure (f', y'), rt) := k2
    simp only [Router.impl, k2] at a2
    rw [hrb] at b2
    have b3 := congrArg Prod.fst b2
    have a3 := congrArg Prod.fst a2
    simp only [pure, Option.getD_some, Act.run, Option.some.injEq, Prod.mk.injEq] at b3 a3
    rw [e1.1, ← a3.1, b3.1]

/-! ### The hypotheses are met -/

theorem caseBlind_pure {ρ : Type} (E : Setup σ ρ) (h : Router.Handler Act) (g : Request → Fields) (hh : ∀ r, h r = pure (g r, r))
    (hg : ∀ r r', folded r = folded r' → g r = g r') : CaseBlind E h := by
  intro r r' w w' body hr _ _
  rw [hh, hh, hg r r' hr]
  exact ⟨_, _, _, _, _, rfl, rfl⟩

theorem handlerOf_caseBlind {ρ : Type} (E : Setup σ ρ) (g : Request → Asking) (hg : ∀ r r' body, folded r = folded r' → (g r).given body = (g r').given body) : CaseBlind E (handlerOf g) := by
  intro r r' w w' body hr hw hw'
  obtain ⟨l, b1, -⟩ := handlerOf_run hw g r
  obtain ⟨l', b2, -⟩ := handlerOf_run hw' g r'
  refine ⟨_, _, r', _, l', b1, ?_⟩
  rw [b2, hg (contents r) (contents r') body hr]

/-- A request with its name in a header. -/
def nameTag (name length connection : Bytes) : Sending where
  head := { method := .POST, target := b!"/a", query := none, version := b!"HTTP/1.1", crlf := true,
            fields := [⟨name, 1, b!"joe", true⟩, ⟨length, 1, b!"5", true⟩, ⟨connection, 1, b!"keep-alive", true⟩], lastCrlf := true }
  path := b!"/a"
  body := b!"hello"
  coded := b!"hello"

theorem nameTag_ok : SendableWith Fold.ascii Config.default (nameTag b!"X-Name" b!"Content-Length" b!"Connection") where
  ok := ⟨by decide, by decide, by simp [nameTag], ⟨⟨_, 46, .inr (.inl ⟨rfl, rfl⟩)⟩, by decide, by decide⟩, by
    intro f hf
    simp only [nameTag, List.mem_cons, List.not_mem_nil, or_false] at hf
    rcases hf with rfl | rfl | rfl
    · exact ⟨by decide, by decide, by decide, by decide, by decide, by decide⟩
    · exact ⟨by decide, by decide, by decide, by decide, by decide, fun _ => by decide⟩
    · exact ⟨by decide, by decide, by decide, by decide, by decide, by decide⟩⟩
  clean := by unfold Head.CleanNames; decide
  noBareEmpty := by unfold Head.NoBareEmpty; decide
  fits := ⟨by decide +kernel, by decide +kernel, by decide +kernel, by decide +kernel, by decide +kernel⟩
  path := .lit (by decide) (.lit (by decide) .nil)
  framed := .sized (by decide +kernel) rfl (by decide)
  body := by decide +kernel

theorem nameTagToo_ok : SendableWith Fold.ascii Config.default (nameTag b!"x-NAME" b!"CONTENT-length" b!"cOnNeCtIoN") where
  ok := ⟨by decide, by decide, by simp [nameTag], ⟨⟨_, 46, .inr (.inl ⟨rfl, rfl⟩)⟩, by decide, by decide⟩, by
    intro f hf
    simp only [nameTag, List.mem_cons, List.not_mem_nil, or_false] at hf
    rcases hf with rfl | rfl | rfl
    · exact ⟨by decide, by decide, by decide, by decide, by decide, by decide⟩
    · exact ⟨by decide, by decide, by decide, by decide, by decide, fun _ => by decide⟩
    · exact ⟨by decide, by decide, by decide, by decide, by decide, by decide⟩⟩
  clean := by unfold Head.CleanNames; decide
  noBareEmpty := by unfold Head.NoBareEmpty; decide
  fits := ⟨by decide +kernel, by decide +kernel, by decide +kernel, by decide +kernel, by decide +kernel⟩
  path := .lit (by decide) (.lit (by decide) .nil)
  framed := .sized (by decide +kernel) rfl (by decide)
  body := by decide +kernel

/-- The two, and another pair of requests. -/
def namings : List (Sending × Sending) := [(nameTag b!"X-Name" b!"Content-Length" b!"Connection", nameTag b!"x-NAME" b!"CONTENT-length" b!"cOnNeCtIoN"), (chunked, chunkedToo)]

theorem namings_ok : ∀ x ∈ namings, SendableWith Fold.ascii Config.default x.1 ∧ SendableWith Fold.ascii Config.default x.2 ∧ AlikeSaid x.1 x.2 := by
  intro x hx
  simp only [namings, List.mem_cons, List.not_mem_nil, or_false] at hx
  rcases hx with rfl | rfl
  · exact ⟨nameTag_ok, nameTagToo_ok, rfl, rfl, rfl, fun _ => Iff.rfl, by decide +kernel, by decide +kernel, rfl⟩
  · exact ⟨chunked_ok, chunkedToo_ok, rfl, rfl, rfl, fun _ => Iff.rfl, by decide +kernel, by decide +kernel, rfl⟩

/-- Answers with the value of a header, and with the body. -/
def welcome (r : Request) : Asking := .whole (fun d _ => Fields.new.bytes (r.Headers.value Fold.ascii b!"x-name" ++ d.getD []))

theorem welcome_blind (r r' : Request) (body : Bytes) (h : folded r = folded r') : (welcome r).given body = (welcome r').given body := by
  simp only [welcome, Asking.given, (C114_lookups Fold.ascii r.Headers r'.Headers (Router.folded_iff.1 h).2 b!"x-name" b!"x-name" rfl).2.1]

/-- C114 for two functions. -/
example : ∃ cl₁ cl₂,
    (∀ r r' body, folded r = folded r' → (welcome r).given body = (welcome r').given body) ∧
    (∀ (seen : Request) (world : Act.World CS), world.hijacked = false →
      (((fun r => pure (Fields.new.bytes r.Path, r) : Router.Handler Act) { seen with Env := { seen.Env with Error := some closeError } }).run simple.P simple.maxAlloc world).1.isSome ∧
      (((fun r => pure (Fields.new.bytes r.Path, r) : Router.Handler Act) { seen with Env := { seen.Env with Error := some closeError } }).run simple.P simple.maxAlloc world).2.hijacked = false) ∧
    (∀ x ∈ namings, SendableWith simple.F Config.default x.1 ∧ SendableWith simple.F Config.default x.2 ∧ AlikeSaid x.1 x.2) ∧
    Quiet cl₁ ∧ Quiet cl₂ ∧ cl₁.wscript = cl₂.wscript ∧
    Config.default.bodyMaxSize.toNat ≤ simple.maxAlloc ∧ simple.maxAlloc < 2 ^ 63 ∧
    cl₁.stream = namings.flatMap (fun x => x.1.bytes) ∧ cl₂.stream = namings.flatMap (fun x => x.2.bytes) ∧ cl₁.stream ≠ cl₂.stream ∧
    (readAnswers [.POST, .POST]
      (serve simple (newConn simple.P Config.default 1 b!"1.2.3.4" ⟨handlerOf welcome, fun r => pure (Fields.new.bytes r.Path, r)⟩ (followedBy cl₂ []))).1.client.written.flatten).map
      (List.map (fun a => (a.1.isSome, a.2.code, a.2.rest))) = some [(false, 200, b!"joehello"), (false, 200, b!"hello")] := by
  exact ⟨arrive [namings.flatMap (fun x => x.1.bytes)], arrive [(namings.flatMap (fun x => x.2.bytes)).take 50, (namings.flatMap (fun x => x.2.bytes)).drop 50],
    welcome_blind, fun seen world h => ⟨rfl, h⟩, namings_ok, by unfold Quiet; decide +kernel, by unfold Quiet; decide +kernel, rfl, by decide, by decide, by decide +kernel, by decide +kernel, by decide +kernel, by decide +kernel⟩

/-- A program with this handler. -/
def welcomer : List (Router.Op Act) := [.route 0 .POST b!"/a" (handlerOf welcome) []]

open Indigo.Router Indigo.Spec.Router in
private theorem welcomer_made : (make dinerSetup.F (fun _ => []) sampleEnv welcomer).isSome = true := rfl

open Indigo.Router Indigo.Spec.Router in
set_option maxRecDepth 200000 in
/-- C114 for a program; the second request is for a path which nothing is registered for. -/
example : ∃ rt cl₁ cl₂, make dinerSetup.F (fun _ => []) sampleEnv welcomer = some rt ∧
    (∀ r, Untouched r (mutated welcomer r)) ∧ (∀ r : Request, r.Path ≠ [] → (mutated welcomer r).Path ≠ []) ∧
    (∀ r r', contents r = contents r' → contents (mutated welcomer r) = contents (mutated welcomer r')) ∧ (∀ r r', folded r = folded r' → folded (mutated welcomer r) = folded (mutated welcomer r')) ∧
    AllHandlers dinerSetup.F (fun _ => []) welcomer (Polite dinerSetup) ∧ AllHandlers dinerSetup.F (fun _ => []) welcomer (CaseBlind dinerSetup) ∧
    (∀ h r (world : Act.World CS), handlerFor dinerSetup.F (fun _ => []) welcomer Status.ErrCloseConnection.Code = some h → world.hijacked = false →
      ((h (failing r closeError)).run dinerSetup.P dinerSetup.maxAlloc world).1.isSome) ∧
    (∀ x ∈ namings, SendableWith dinerSetup.F Config.default x.1 ∧ SendableWith dinerSetup.F Config.default x.2 ∧ AlikeSaid x.1 x.2) ∧ (∀ x ∈ namings, x.1.head.method ≠ .TRACE) ∧
    Quiet cl₁ ∧ Quiet cl₂ ∧ cl₁.wscript = cl₂.wscript ∧ Silent [] ∧
    cl₁.stream = namings.flatMap (fun x => x.1.bytes) ∧ cl₂.stream = namings.flatMap (fun x => x.2.bytes) ∧ cl₁.stream ≠ cl₂.stream ∧
    (readAnswers [.POST, .POST]
      (serve dinerSetup (newConn dinerSetup.P Config.default 1 b!"1.2.3.4" rt (followedBy cl₂ []))).1.client.written.flatten).map
      (List.map (fun a => (a.1.isSome, a.2.code, a.2.rest))) = some [(false, 200, b!"joehello"), (false, 404, b!"")] := by
  have hd : declared welcomer = [((b!"/a", .POST), handlerOf welcome)] := rfl
  have he : errorHandlers (Spec.Router.defaults dinerSetup.F (fun _ => [])) welcomer = [(0, defaultAllErrorsHandler (fun _ => [])),
      (405, defaultMethodNotAllowedHandler Fold.ascii (fun _ => []))] := rfl
  have hm : ∀ r, mutated welcomer r = r := fun _ => rfl
  refine ⟨(make dinerSetup.F (fun _ => []) sampleEnv welcomer).get welcomer_made, arrive [namings.flatMap (fun x => x.1.bytes)],
    arrive [(namings.flatMap (fun x => x.2.bytes)).take 50, (namings.flatMap (fun x => x.2.bytes)).drop 50],
    by simp, fun r => ⟨rfl, rfl, rfl, rfl, rfl, id⟩, fun r h => h, fun r r' h => h, fun r r' h => h,
    ⟨?_, (fun c (hc : c ∈ []) => (List.not_mem_nil hc).elim), ?_⟩, ⟨?_, (fun c (hc : c ∈ []) => (List.not_mem_nil hc).elim), ?_⟩, ?_, namings_ok, by decide +kernel,
    by unfold Quiet; decide +kernel, by unfold Quiet; decide +kernel, rfl, ?_, by decide +kernel, by decide +kernel, by decide +kernel, by decide +kernel⟩
  · rw [hd]
    intro d h
    cases List.mem_singleton.1 h
    exact polite_handlerOf dinerSetup welcome
  · intro e he'
    rw [he] at he'
    simp only [List.mem_cons, List.not_mem_nil, or_false] at he'
    rcases he' with rfl | rfl <;> exact polite_pure _ _ (fun r => ⟨_, rfl⟩)
  · rw [hd]
    intro d h
    cases List.mem_singleton.1 h
    exact handlerOf_caseBlind dinerSetup welcome welcome_blind
  · intro e he'
    rw [he] at he'
    simp only [List.mem_cons, List.not_mem_nil, or_false] at he'
    have henv : ∀ {r r' : Request}, folded r = folded r' → r.Env = r'.Env := fun h => (congrArg Request.Env h :)
    rcases he' with rfl | rfl
    · exact caseBlind_pure _ _ (fun r => Fields.new.error (fun _ => []) r.Env.Error []) (fun r => rfl) (fun r r' h => by rw [henv h])
    · exact caseBlind_pure _ _ (fun r => ((Fields.new.error (fun _ => []) (some (.http Status.ErrMethodNotAllowed)) []).header Fold.ascii b!"Allow" [r.Env.AllowedMethods]).getD
        (Fields.new.error (fun _ => []) (some (.http Status.ErrMethodNotAllowed)) [])) (fun r => rfl) (fun r r' h => by rw [henv h])
  · intro h r world hh _
    have : handlerFor dinerSetup.F (fun _ => []) welcomer Status.ErrCloseConnection.Code = some (defaultAllErrorsHandler (fun _ => [])) := rfl
    rw [this] at hh
    cases hh
    rfl
  · intro r hr; cases hr

/-- C114 for lookups. -/
example : (([⟨b!"Host", b!"a"⟩, ⟨b!"X-Name", b!"joe"⟩] : List Pair).map (fun p => (lower p.Key, p.Value)) = [⟨b!"hOST", b!"a"⟩, ⟨b!"x-name", b!"joe"⟩].map (fun p : Pair => (lower p.Key, p.Value))) ∧
    ({ pairs := [⟨b!"Host", b!"a"⟩, ⟨b!"X-Name", b!"joe"⟩] } : Storage).value Fold.ascii b!"X-NAME" = b!"joe" := by decide

end Indigo.Props
