/-
C110: how the bytes of the requests are cut into pieces makes no difference.
-/
import Verif.Props.Replies
import Verif.Spec.Same

namespace Indigo.Props
open Indigo.Serve Indigo.Spec Indigo.Serializer
variable {σ ρ : Type}

theorem isVersion_same {v : Bytes} {p q : Proto} (hp : IsVersion v p) (hq : IsVersion v q) : p = q := by
  obtain ⟨a, ha⟩ := hp
  obtain ⟨b, hb⟩ := hq
  rcases ha with ⟨h1, rfl⟩ | ⟨h1, rfl⟩ | ⟨h1, rfl⟩ <;> rcases hb with ⟨h2, rfl⟩ | ⟨h2, rfl⟩ | ⟨h2, rfl⟩ <;> first
    | rfl
    | (rw [h1] at h2; simp at h2)

/-- What a request says is determined by what is sent. -/
theorem delivered_unique {E : Setup σ ρ} {T : Nat} {remote : Bytes} {post post' : List (Bytes × Option GoErr)} {env s after after' seen seen' world world'}
    (h : Delivered E T remote post env s after seen world) (h' : Delivered E T remote post' env s after' seen' world') : contents seen = contents seen' := by
  have c := h.carries
  have c' := h'.carries
  have e1 := c.method.trans c'.method.symm
  have e2 := h.path.trans h'.path.symm
  have e3 := c.query.1.trans c'.query.1.symm
  have e4 := c.query.2.1.trans c'.query.2.1.symm
  have e5 := c.query.2.2.trans c'.query.2.2.symm
  have e6 := isVersion_same c.proto c'.proto
  have e7 := c.headers.trans c'.headers.symm
  have e8 := c.contentLength.trans c'.contentLength.symm
  have e9 := c.connection.trans c'.connection.symm
  have e10 := c.contentType.trans c'.contentType.symm
  have e11 := c.upgrade.trans c'.upgrade.symm
  have e12 := c.trailer.trans c'.trailer.symm
  have e13 := c.content.trans c'.content.symm
  have e14 := c.transfer.trans c'.transfer.symm
  have e15 := c.chunked
  have e16 := c'.chunked
  have e17 := h.params.trans h'.params.symm
  have e18 := h.ctx.trans h'.ctx.symm
  have e19 := h.env.trans h'.env.symm
  have e20 := h.remote.trans h'.remote.symm
  have e21 := h.hijacked.trans h'.hijacked.symm
  have e22 : seen.Encoding.Chunked = seen'.Encoding.Chunked := by rw [e15, e16, e14]
  obtain ⟨m, p, ⟨q1, q2, q3⟩, ps, pr, hs, ⟨n1, n2, n3, n4⟩, cl, ct, cn, up, rm, cx, ev, wh, jr⟩ := seen
  obtain ⟨m', p', ⟨q1', q2', q3'⟩, ps', pr', hs', ⟨n1', n2', n3', n4'⟩, cl', ct', cn', up', rm', cx', ev', wh', jr'⟩ := seen'
  simp only at e1 e2 e3 e4 e5 e6 e7 e8 e9 e10 e11 e12 e13 e14 e17 e18 e19 e20 e21 e22
  simp only [contents]
  rw [e1, e2, e3, e4, e5, e6, e7, e8, e9, e10, e11, e12, e13, e14, e17, e18, e19, e20, e21, e22]

/-- Of the request, a response depends on the method, the header Connection and the wish to upgrade only. -/
theorem write_request (F : Fold) (d : Serializer) (p : Proto) {r r' : Request} (f : Fields) (c : Client) (h1 : r.Method = r'.Method) (h2 : r.Connection = r'.Connection)
    (h3 : r.Upgrade = r'.Upgrade) : d.write F p r f c = d.write F p r' f c := by
  simp only [Serializer.write, sendAttachment, renderPlain, h1, h2, h3]

theorem opening_request (F : Fold) (d : Serializer) (pre : Fields) {r r' : Request} (h1 : r.Proto = r'.Proto) (h2 : r.Upgrade = r'.Upgrade) :
    opening F d pre r = opening F d pre r' := by
  simp only [opening, switching, h1, h2]

/-- What becomes of a request, in an application whose answers are functions of what is sent. -/
theorem conversation_step {E : Setup σ ρ} {T : Nat} {remote : Bytes} {post : List (Bytes × Option GoErr)} {good : Sending → Prop} {enc : EncToken} {st0 : ρ}
    {reply : List Sending → Sending → Fields} (rep : Repeatable E good T enc remote st0 reply) {before history} (heard : HeardSo E good T enc remote post before history)
    {st d pre ws s ss vs frames why} (hst : st = routerAfter E st0 history) (hg : good s)
    (h : Conversation E T remote [] post (Silence E) (environment enc before) st d pre ws (s :: ss) vs frames why) :
    ∃ seen world after w, Delivered E T remote post (environment enc before) s after seen world ∧
      w = Serializer.write E.F (opening E.F d pre seen).2.1 (opening E.F d pre seen).1 seen (reply before s) { wscript := ws } ∧
      ((w.out = .panic ∧ frames = w.client.written ∧ why = .panicked) ∨
       (∃ e, w.out = .done (some e) ∧ frames = w.client.written ∧ why = .writeFailed) ∨
       (∃ vs' frames', w.out = .done none ∧ frames = w.client.written ++ frames' ∧
        Conversation E T remote [] post (Silence E) {} (routerAfter E st0 (history ++ [seen])) w.ser (opening E.F d pre seen).2.2 w.client.wscript ss vs' frames' why)) := by
  subst hst
  cases h with
  | panicked hd ha =>
    obtain ⟨req, left, r1, -⟩ := rep.request _ _ _ _ _ _ _ heard hg hd
    unfold Answers at r1 ha
    rw [r1] at ha; cases ha
  | hijacked hd ha _ hh =>
    obtain ⟨req, left, r1, r2, -⟩ := rep.request _ _ _ _ _ _ _ heard hg hd
    unfold Answers at r1 ha
    rw [r1] at ha; cases ha
    rw [r2] at hh; cases hh
  | @broken _ _ _ _ _ _ _ seen world f req left w hd ha _ hw hout =>
    obtain ⟨req, left, r1, r2, r3, r4, r5⟩ := rep.request _ _ _ _ _ _ _ heard hg hd
    unfold Answers at r1 ha
    rw [r1] at ha; cases ha
    rw [write_request _ _ _ _ _ r3 r4 r5] at hw
    exact ⟨seen, world, _, w, hd, hw, .inl ⟨hout, rfl, rfl⟩⟩
  | @closed _ _ _ _ _ _ _ seen world f req left w e seen' ans left' more hd ha _ hw hout ht hm =>
    obtain ⟨req, left, r1, r2, r3, r4, r5⟩ := rep.request _ _ _ _ _ _ _ heard hg hd
    unfold Answers at r1 ha
    rw [r1] at ha; cases ha
    rw [write_request _ _ _ _ _ r3 r4 r5] at hw
    obtain ⟨world', hw', ht⟩ := ht
    have := rep.error (history ++ [seen]) seen' world' hw'
    rw [show routerAfter E st0 (history ++ [seen]) = (E.router.onRequest (routerAfter E st0 history) seen).2 by simp [routerAfter], ht] at this
    refine ⟨seen, world, _, w, hd, hw, .inr (.inl ⟨e, hout, ?_, ?_⟩)⟩
    · rw [hm this.2]; simp
    · rw [if_pos this.1]
  | @next _ _ _ _ _ _ _ seen world f req left w vs' frames' _ hd ha _ hw hout hn =>
    obtain ⟨req, left, r1, r2, r3, r4, r5⟩ := rep.request _ _ _ _ _ _ _ heard hg hd
    unfold Answers at r1 ha
    rw [r1] at ha; cases ha
    rw [write_request _ _ _ _ _ r3 r4 r5] at hw
    refine ⟨seen, world, _, w, hd, hw, .inr (.inr ⟨vs', frames', hout, rfl, ?_⟩)⟩
    rw [show routerAfter E st0 (history ++ [seen]) = (E.router.onRequest (routerAfter E st0 history) seen).2 by simp [routerAfter]]
    exact hn

theorem conversation_same {E : Setup σ ρ} {T : Nat} {remote : Bytes} {post₁ post₂ : List (Bytes × Option GoErr)} {good : Sending → Prop} {enc : EncToken} {st0 : ρ}
    {reply : List Sending → Sending → Fields} (rep : Repeatable E good T enc remote st0 reply) : ∀ (ss : List Sending) (before : List Sending) (history₁ history₂ : List Request) d pre ws vs₁ vs₂ frames₁ frames₂ why₁ why₂,
    HeardSo E good T enc remote post₁ before history₁ → HeardSo E good T enc remote post₂ before history₂ → (∀ s ∈ ss, good s) →
    Conversation E T remote [] post₁ (Silence E) (environment enc before) (routerAfter E st0 history₁) d pre ws ss vs₁ frames₁ why₁ →
    Conversation E T remote [] post₂ (Silence E) (environment enc before) (routerAfter E st0 history₂) d pre ws ss vs₂ frames₂ why₂ →
    frames₁ = frames₂ ∧ why₁ = why₂ := by
  intro ss
  induction ss with
  | nil =>
    intro before history₁ history₂ d pre ws vs₁ vs₂ frames₁ frames₂ why₁ why₂ _ _ _ h₁ h₂
    have key : ∀ post history vs frames why, Conversation E T remote [] post (Silence E) (environment enc before) (routerAfter E st0 history) d pre ws [] vs frames why →
        frames = [] ∧ why = .readFailed := by
      intro post history vs frames why h
      cases h with
      | done h =>
        obtain ⟨seen, a, left, _, ⟨world, hw, told⟩, hm, hy⟩ := h
        have := rep.error history seen world hw
        rw [told] at this
        exact ⟨hm this.2, by rw [hy, if_pos this.1]⟩
    obtain ⟨a1, a2⟩ := key _ _ _ _ _ h₁
    obtain ⟨b1, b2⟩ := key _ _ _ _ _ h₂
    exact ⟨a1.trans b1.symm, a2.trans b2.symm⟩
  | cons s ss ih =>
    intro before history₁ history₂ d pre ws vs₁ vs₂ frames₁ frames₂ why₁ why₂ heard₁ heard₂ hg h₁ h₂
    obtain ⟨seen₁, world₁, after₁, w₁, d₁, hw₁, c₁⟩ := conversation_step rep heard₁ rfl (hg s (by simp)) h₁
    obtain ⟨seen₂, world₂, after₂, w₂, d₂, hw₂, c₂⟩ := conversation_step rep heard₂ rfl (hg s (by simp)) h₂
    have hc := delivered_unique d₁ d₂
    have hm : seen₁.Method = seen₂.Method := (congrArg Request.Method hc :)
    have hn : seen₁.Connection = seen₂.Connection := (congrArg Request.Connection hc :)
    have hu : seen₁.Upgrade = seen₂.Upgrade := (congrArg Request.Upgrade hc :)
    have hp : seen₁.Proto = seen₂.Proto := (congrArg Request.Proto hc :)
    have ho := opening_request E.F d pre hp hu
    have hw : w₁ = w₂ := by rw [hw₁, hw₂, ho]; exact write_request _ _ _ _ _ hm hn hu
    subst hw
    rcases c₁ with ⟨o₁, f₁, y₁⟩ | ⟨e₁, o₁, f₁, y₁⟩ | ⟨vs₁', fr₁, o₁, f₁, n₁⟩ <;> rcases c₂ with ⟨o₂, f₂, y₂⟩ | ⟨e₂, o₂, f₂, y₂⟩ | ⟨vs₂', fr₂, o₂, f₂, n₂⟩ <;>
      rw [o₁] at o₂ <;> first | cases o₂ | skip
    · exact ⟨f₁.trans f₂.symm, y₁.trans y₂.symm⟩
    · exact ⟨f₁.trans f₂.symm, y₁.trans y₂.symm⟩
    · rw [← ho] at n₂
      have henv : environment enc (before ++ [s]) = {} := by simp [environment]
      obtain ⟨g1, g2⟩ := ih (before ++ [s]) (history₁ ++ [seen₁]) (history₂ ++ [seen₂]) _ _ _ _ _ _ _ _ _ (.next heard₁ (hg s (by simp)) d₁) (.next heard₂ (hg s (by simp)) d₂)
        (fun x hx => hg x (by simp [hx])) (by rw [henv]; exact n₁) (by rw [henv]; exact n₂)
      exact ⟨by rw [f₁, f₂, g1], g2⟩

/-- **C110.** The answers of the application to some requests (the `good` ones) are functions of what is sent (`Repeatable`). Two clients send the same well-formed requests of these, one after another, but cut into pieces in different ways; when they have
sent the last one, they fall silent or close the connection, each in its way; writing to them has the same results. Then the server writes the same bytes to both, by the same calls of `Write`, and serving ends in the same way. -/
theorem C110_same_answers (E : Setup σ ρ) (dec : DecodesChunked E.P) (cfg : Config) (size : cfg.bodyMaxSize < 2 ^ 64) (enc : EncToken) (remote : Bytes) (st : ρ)
    (tame : Tame E st) (reply : List Sending → Sending → Fields) (good : Sending → Prop)
    (rep : Repeatable E (fun s => SendableWith E.F cfg s ∧ good s) cfg.maxEncodingTokens.toNat enc remote st reply)
    (ss : List Sending) (ok : ∀ s ∈ ss, SendableWith E.F cfg s ∧ good s)
    (cl₁ cl₂ : Client) (quiet₁ : Quiet cl₁) (quiet₂ : Quiet cl₂) (writes : cl₁.wscript = cl₂.wscript)
    (post₁ post₂ : List (Bytes × Option GoErr)) (silent₁ : Silent post₁) (silent₂ : Silent post₂)
    (stream₁ : cl₁.stream = ss.flatMap Sending.bytes) (stream₂ : cl₂.stream = ss.flatMap Sending.bytes) :
    ∃ frames why,
      (serve E (newConn E.P cfg enc remote st (followedBy cl₁ post₁))).1.client.written = cl₁.written ++ frames ∧
      (serve E (newConn E.P cfg enc remote st (followedBy cl₂ post₂))).1.client.written = cl₂.written ++ frames ∧
      (serve E (newConn E.P cfg enc remote st (followedBy cl₁ post₁))).2 = some why ∧
      (serve E (newConn E.P cfg enc remote st (followedBy cl₂ post₂))).2 = some why := by
  obtain ⟨c₁, why₁, vs₁, frames₁, h1, _, h2, h3⟩ := C22_pipelining E dec cfg size enc remote st tame cl₁ quiet₁ post₁ silent₁ ss (fun s hs => (ok s hs).1) stream₁
  obtain ⟨c₂, why₂, vs₂, frames₂, k1, _, k2, k3⟩ := C22_pipelining E dec cfg size enc remote st tame cl₂ quiet₂ post₂ silent₂ ss (fun s hs => (ok s hs).1) stream₂
  rw [writes] at h3
  obtain ⟨e1, e2⟩ := conversation_same rep ss [] [] [] _ _ _ _ _ _ _ _ _ .none .none ok
    (by simpa [environment, routerAfter] using h3) (by simpa [environment, routerAfter] using k3)
  refine ⟨frames₁, why₁, by rw [h1]; exact h2, by rw [k1, e1]; exact k2, by rw [h1], by rw [k1, e2]⟩

/-! ### Applications of two functions -/

/-- What a handler is called with for a request which has just come. -/
theorem delivered_holds {E : Setup σ ρ} {cfg : Config} (alloc : cfg.bodyMaxSize.toNat ≤ E.maxAlloc) (large : E.maxAlloc < 2 ^ 63) {remote : Bytes} {post : List (Bytes × Option GoErr)} {env s after seen world}
    (ok : SendableWith E.F cfg s) (del : Delivered E cfg.maxEncodingTokens.toNat remote post env s after seen world) : Holds E ⟨world.1, world.2, false⟩ s.body := by
  obtain ⟨b, hb, _⟩ := del.fresh
  obtain ⟨ds, b', c', hp, hds, _⟩ := del.body
  obtain ⟨wb, wc⟩ := world
  simp only at hb
  subst hb
  refine ⟨rfl, (Body.initFor_fresh b seen).1, ?_, ds, _, hp, hds⟩
  cases ok.framed with
  | sized _ _ h2 =>
    right
    have h1 := del.carries.contentLength
    have h3 : s.body.length ≤ cfg.bodyMaxSize.toNat := ok.body
    have : (b.initFor seen).contentLength = seen.ContentLength := by unfold Body.initFor; dsimp only; split <;> rfl
    have h4 : ((decimal s.head.lengthDigits : Int) % ((2 ^ 64 : Nat) : Int)) = s.body.length := by
      rw [← Int.natCast_emod]; exact congrArg Nat.cast h2
    show (b.initFor seen).contentLength ≤ _
    rw [this, h1, ← Int.emod_bmod, h4, Int.bmod_eq_of_le (by omega) (by omega)]
    omega
  | chunked chunks h1 _ _ =>
    left
    have : (b.initFor seen).isChunked = seen.Encoding.Chunked := by unfold Body.initFor; dsimp only; split <;> rfl
    show (b.initFor seen).isChunked = true
    rw [this, del.carries.chunked, del.carries.transfer]
    exact h1

/-- `Bytes`, called first. -/
theorem holds_bytes {E : Setup σ ρ} {w : Act.World σ} {body : Bytes} (h : Holds E w body) :
    (Body.bytes E.P E.maxAlloc (w.body, w.client)).1 = .ok (some body, none) := by
  obtain ⟨-, he, hlim, ds, s', hp, hds⟩ := h
  obtain ⟨b, wc, _⟩ := w
  dsimp only at hp he hlim
  unfold Body.bytes
  simp only [he, Bool.false_eq_true, if_false]
  rw [if_neg (by
    rintro ⟨h1, _, h2⟩
    rcases hlim with h | h
    · exact h1 h
    · omega)]
  obtain ⟨k, hk⟩ : ∃ k, b.prepared = Body.withAux b ⟨[], k, b.stashPending, b.stashError⟩ := by
    unfold Body.prepared
    split
    · exact ⟨_, rfl⟩
    · exact ⟨b.fullCap, rfl⟩
  have hq := Body.pieces_aux E.P ⟨[], k, b.stashPending, b.stashError⟩ hp
  have hb := Body.bytesLoop_pieces E.P hq [] (wc.size + 2) (by simp)
  have haf : Body.afterFull (Body.withAux b ⟨[], k, b.stashPending, b.stashError⟩, wc) [] = (b.prepared, wc) := by rw [hk]; rfl
  rw [haf] at hb
  rw [hb, hds]
  simp [Body.bytesAnswer]

theorem handlerOf_run {E : Setup σ ρ} {w : Act.World σ} {body : Bytes} (h : Holds E w body) (g : Request → Asking) (r : Request) :
    ∃ left, (handlerOf g r).run E.P E.maxAlloc w = (some ((g (contents r)).given body, r), left) ∧ left.hijacked = false := by
  unfold handlerOf
  cases g (contents r) with
  | answer f => exact ⟨_, rfl, h.hijacked⟩
  | whole next =>
    have := holds_bytes h
    change ∃ left, Act.run E.P E.maxAlloc (Act.bind (Act.body .bytes _) _) _ = _ ∧ _
    simp only [Act.bind, Act.run]
    simp only [Body.call, this]
    exact ⟨_, rfl, h.hijacked⟩

theorem handlerOf_determined (E : Setup σ ρ) (g : Request → Asking) : Determined E (handlerOf g) := by
  intro r r' w w' body hc h h'
  obtain ⟨left, h1, -⟩ := handlerOf_run h g r
  obtain ⟨left', h2, -⟩ := handlerOf_run h' g r'
  rw [← hc] at h2
  exact ⟨_, _, _, _, _, h1, h2⟩

/-- If the answers of an application are the same whenever it has been sent the same, they are a function of this. -/
theorem repeatable_of {E : Setup σ ρ} {good : Sending → Prop} {T : Nat} {enc : EncToken} {remote : Bytes} {st : ρ}
    (two : ∀ before history history' post post' s after after' seen seen' world world', HeardSo E good T enc remote post before history → HeardSo E good T enc remote post' before history' → good s →
      Delivered E T remote post (environment enc before) s after seen world → Delivered E T remote post' (environment enc before) s after' seen' world' →
      ∃ f req req' left left', Answers E (routerAfter E st history) seen world (some (f, req), left) ∧ Answers E (routerAfter E st history') seen' world' (some (f, req'), left'))
    (nice : ∀ before history post s after seen world f req left, HeardSo E good T enc remote post before history → good s → Delivered E T remote post (environment enc before) s after seen world →
      Answers E (routerAfter E st history) seen world (some (f, req), left) →
      left.hijacked = false ∧ req.Method = seen.Method ∧ req.Connection = seen.Connection ∧ req.Upgrade = seen.Upgrade)
    (error : ∀ history seen (world : Act.World σ), world.hijacked = false →
      ((E.router.onError (routerAfter E st history) seen closeError).1.run E.P E.maxAlloc world).1.isSome ∧
      ((E.router.onError (routerAfter E st history) seen closeError).1.run E.P E.maxAlloc world).2.hijacked = false) :
    ∃ reply, Repeatable E good T enc remote st reply := by
  classical
  refine ⟨fun before s => if h : ∃ f post history after seen world req left, HeardSo E good T enc remote post before history ∧
      Delivered E T remote post (environment enc before) s after seen world ∧ Answers E (routerAfter E st history) seen world (some (f, req), left) then h.choose else Fields.new, ?_, error⟩
  intro before history post s after seen world heard hg del
  obtain ⟨f, req, _, left, _, ha, -⟩ := two before history history post post s after after seen seen world world heard heard hg del del
  have hex : ∃ f post history after seen world req left, HeardSo E good T enc remote post before history ∧
      Delivered E T remote post (environment enc before) s after seen world ∧ Answers E (routerAfter E st history) seen world (some (f, req), left) :=
    ⟨f, post, history, after, seen, world, req, left, heard, del, ha⟩
  obtain ⟨post', history', after', seen', world', req', left', heard', del', ha'⟩ := hex.choose_spec
  obtain ⟨f2, q, q', l, l', h1, h2⟩ := two before history history' post post' s after after' seen seen' world world' heard heard' hg del del'
  have e : f2 = hex.choose := by
    unfold Answers at h2 ha'
    rw [ha'] at h2
    cases h2
    rfl
  simp only [dif_pos hex]
  rw [← e]
  exact ⟨q, l, h1, nice _ _ _ _ _ _ _ _ _ _ heard hg del h1⟩

theorem functions_state {E : Setup σ (Simple.Router Act)} (router : E.router = Simple.impl Act) : ∀ (st : Simple.Router Act) (history : List Request), routerAfter E st history = st := by
  intro st history
  unfold routerAfter
  induction history with
  | nil => rfl
  | cons a l ih => rw [List.foldl_cons, router]; rw [router] at ih; exact ih

/-- The answers of two functions are functions of what is sent. -/
theorem functions_repeatable {E : Setup σ (Simple.Router Act)} (router : E.router = Simple.impl Act) {cfg : Config}
    (alloc : cfg.bodyMaxSize.toNat ≤ E.maxAlloc) (large : E.maxAlloc < 2 ^ 63) (enc : EncToken) (remote : Bytes) (g : Request → Asking) (errHandler : Router.Handler Act)
    (closing : ∀ (seen : Request) (world : Act.World σ), world.hijacked = false → ((errHandler { seen with Env := { seen.Env with Error := some closeError } }).run E.P E.maxAlloc world).1.isSome ∧
      ((errHandler { seen with Env := { seen.Env with Error := some closeError } }).run E.P E.maxAlloc world).2.hijacked = false) :
    Tame E ⟨handlerOf g, errHandler⟩ ∧ ∃ reply, Repeatable E (fun s => SendableWith E.F cfg s ∧ True) cfg.maxEncodingTokens.toNat enc remote ⟨handlerOf g, errHandler⟩ reply := by
  have state := functions_state router
  have same : ∀ r w f r', ((handlerOf g r).run E.P E.maxAlloc w).1 = some (f, r') → r' = r := by
    intro r w f r' h
    unfold handlerOf at h
    split at h
    · cases h; rfl
    · change (Act.run E.P E.maxAlloc (Act.bind (Act.body .bytes _) _) _).1 = _ at h
      simp only [Act.bind, Act.run] at h
      generalize (Body.call E.P E.maxAlloc (w.body, w.client) Body.Call.bytes).1 = a at h
      cases a <;> cases h
      rfl
  have tame : Tame E ⟨handlerOf g, errHandler⟩ := by
    intro history req w f req' hq hr
    rw [state, router] at hr
    rw [same _ _ _ _ hr]
    exact ⟨hq, rfl, rfl⟩
  refine ⟨tame, ?_⟩
  refine repeatable_of ?_ ?_ ?_
  · intro before history history' post post' s after after' seen seen' world world' _ _ hg del del'
    unfold Answers
    rw [state, state, router]
    exact handlerOf_determined E g seen seen' _ _ _ (delivered_unique del del') (delivered_holds alloc large hg.1 del) (delivered_holds alloc large hg.1 del')
  · intro before history post s after seen world f req left _ hg del ha
    unfold Answers at ha
    rw [state, router] at ha
    obtain ⟨left', h1, h2⟩ := handlerOf_run (delivered_holds alloc large hg.1 del) g seen
    simp only [Simple.impl] at ha
    rw [h1] at ha
    cases ha
    exact ⟨h2, rfl, rfl, rfl⟩
  · intro history seen world hw
    rw [state, router]
    exact closing seen world hw

/-- **C110**, for applications of two functions. The handler answers with a function of what the request says and, if it likes, of the whole body (`handlerOf`); the error handler does not panic and does not hijack the connection when it is told that the connection is being closed.
Two clients send the same well-formed requests, cut into pieces in different ways. Then the server writes the same bytes to both. -/
theorem C110_two_functions (E : Setup σ (Simple.Router Act)) (dec : DecodesChunked E.P) (router : E.router = Simple.impl Act) (cfg : Config) (size : cfg.bodyMaxSize < 2 ^ 64)
    (alloc : cfg.bodyMaxSize.toNat ≤ E.maxAlloc) (large : E.maxAlloc < 2 ^ 63) (enc : EncToken) (remote : Bytes) (g : Request → Asking) (errHandler : Router.Handler Act)
    (closing : ∀ (seen : Request) (world : Act.World σ), world.hijacked = false → ((errHandler { seen with Env := { seen.Env with Error := some closeError } }).run E.P E.maxAlloc world).1.isSome ∧
      ((errHandler { seen with Env := { seen.Env with Error := some closeError } }).run E.P E.maxAlloc world).2.hijacked = false)
    (ss : List Sending) (ok : ∀ s ∈ ss, SendableWith E.F cfg s)
    (cl₁ cl₂ : Client) (quiet₁ : Quiet cl₁) (quiet₂ : Quiet cl₂) (writes : cl₁.wscript = cl₂.wscript)
    (post₁ post₂ : List (Bytes × Option GoErr)) (silent₁ : Silent post₁) (silent₂ : Silent post₂)
    (stream₁ : cl₁.stream = ss.flatMap Sending.bytes) (stream₂ : cl₂.stream = ss.flatMap Sending.bytes) :
    ∃ frames why,
      (serve E (newConn E.P cfg enc remote ⟨handlerOf g, errHandler⟩ (followedBy cl₁ post₁))).1.client.written = cl₁.written ++ frames ∧
      (serve E (newConn E.P cfg enc remote ⟨handlerOf g, errHandler⟩ (followedBy cl₂ post₂))).1.client.written = cl₂.written ++ frames ∧
      (serve E (newConn E.P cfg enc remote ⟨handlerOf g, errHandler⟩ (followedBy cl₁ post₁))).2 = some why ∧
      (serve E (newConn E.P cfg enc remote ⟨handlerOf g, errHandler⟩ (followedBy cl₂ post₂))).2 = some why := by
  obtain ⟨tame, reply, rep⟩ := functions_repeatable router alloc large enc remote g errHandler closing
  exact C110_same_answers E dec cfg size enc remote _ tame reply (fun _ => True) rep ss (fun s hs => ⟨ok s hs, trivial⟩) cl₁ cl₂ quiet₁ quiet₂ writes post₁ post₂ silent₁ silent₂ stream₁ stream₂

end Indigo.Props
