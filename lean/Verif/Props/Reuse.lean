/-
C111: a request is answered on a connection which has been used as on a new one.
-/
import Verif.Spec.Reuse
import Verif.Proofs.Reuse
import Verif.Props.Same

namespace Indigo.Props
open Indigo.Serve Indigo.Spec Indigo.Serializer
variable {σ ρ : Type}

theorem opening_unchanged (F : Fold) (d : Serializer) (pre : Fields) {r : Request} (h : r.Upgrade = Proto.Unknown) : opening F d pre r = (r.Proto, d, pre) := by
  unfold opening
  rw [if_neg (by rw [h]; decide)]

/-- The end of a conversation. -/
theorem conversation_end {E : Setup σ ρ} {T : Nat} {remote : Bytes} {post : List (Bytes × Option GoErr)} {good : Sending → Prop} {enc : EncToken} {st0 : ρ}
    {reply : List Sending → Sending → Fields} (rep : Repeatable E good T enc remote st0 reply) {env history d pre ws vs frames why}
    (h : Conversation E T remote [] post (Silence E) env (routerAfter E st0 history) d pre ws [] vs frames why) : frames = [] ∧ why = .readFailed := by
  cases h with
  | done h =>
    obtain ⟨seen, a, left, _, ⟨world, hw, told⟩, hm, hy⟩ := h
    have := rep.error history seen world hw
    rw [told] at this
    exact ⟨hm this.2, by rw [hy, if_pos this.1]⟩

/-- Requests, one after another, each compared with itself on a connection of its own. -/
theorem conversation_own {E : Setup σ ρ} {T : Nat} {remote : Bytes} {post : List (Bytes × Option GoErr)} {good : Sending → Prop} {enc : EncToken} {st0 : ρ}
    {reply : Sending → Fields} (rep : Repeatable E good T enc remote st0 (fun _ => reply)) {n : Int} {defs : List (Bytes × Bytes)}
    (apart : ∀ s, good s → ∀ h ∈ (reply s).Headers, ∀ d ∈ defs, E.F.eq d.1 h.Key = false)
    (own : Sending → List Bytes × Option Ended) : ∀ (ss : List Sending),
    (∀ s ∈ ss, good s ∧ s.head.last b!"upgrade" = none ∧ ∃ post' vs why, (own s).2 = some why ∧
      Conversation E T remote [] post' (Silence E) (environment enc []) st0 (Serializer.new n defs) Fields.new [] [s] vs (own s).1 why) →
    ∀ (before : List Sending) (history : List Request) d vs frames why, HeardSo E good T enc remote post before history → Ready E.F n defs [] d →
    Conversation E T remote [] post (Silence E) (environment enc before) (routerAfter E st0 history) d Fields.new [] ss vs frames why →
    (frames, some why) = inTurn own ss := by
  intro ss
  induction ss with
  | nil =>
    intro _ before history d vs frames why _ _ h
    obtain ⟨rfl, rfl⟩ := conversation_end rep h
    rfl
  | cons s ss ih =>
    intro hall before history d vs frames why heard hd h
    obtain ⟨hg, hu, post', vs', why', ho, hown⟩ := hall s (by simp)
    obtain ⟨seen, world, after, w, del, hw, cs⟩ := conversation_step rep heard rfl hg h
    obtain ⟨seen₁, world₁, after₁, w₁, del₁, hw₁, cs₁⟩ := conversation_step (post := post') rep .none (by simp [routerAfter]) hg hown
    have up : seen.Upgrade = Proto.Unknown := by rw [del.carries.upgrade, hu]; rfl
    have up₁ : seen₁.Upgrade = Proto.Unknown := by rw [del₁.carries.upgrade, hu]; rfl
    have hm : seen.Method = seen₁.Method := del.carries.method.trans del₁.carries.method.symm
    have hn : seen.Connection = seen₁.Connection := del.carries.connection.trans del₁.carries.connection.symm
    have hp : seen.Proto = seen₁.Proto := isVersion_same del.carries.proto del₁.carries.proto
    rw [opening_unchanged _ _ _ up] at hw cs
    rw [opening_unchanged _ _ _ up₁] at hw₁ cs₁
    rw [write_request _ _ _ _ _ hm hn (up.trans up₁.symm), hp] at hw
    obtain ⟨e1, e2⟩ := write_alike hd (ready_first E.F n defs) seen₁.Proto seen₁ (reply s) { wscript := [] }
    have hready : Ready E.F n defs [] w.ser := by rw [hw]; exact ready_apart hd _ _ _ _ (apart s hg)
    obtain ⟨fr, -, hws, -⟩ := write_careful E.F d seen₁.Proto seen₁ (reply s) { wscript := [] }
    rw [← hw] at e1 e2 hws
    rw [← hw₁] at e1 e2
    have hws : w.client.wscript = [] := by rw [hws]; simp
    rw [show inTurn own (s :: ss) = if (own s).2 = some .readFailed then ((own s).1 ++ (inTurn own ss).1, (inTurn own ss).2) else own s from rfl]
    have hown : own s = ((own s).1, some why') := by rw [← ho]
    rcases cs with ⟨o, f, y⟩ | ⟨e, o, f, y⟩ | ⟨vs₂, fr₂, o, f, hnext⟩ <;> rcases cs₁ with ⟨o₁, f₁, y₁⟩ | ⟨e₁, o₁, f₁, y₁⟩ | ⟨vs₁', fr₁, o₁, f₁, n₁⟩ <;>
      rw [e1, o₁] at o <;> first | cases o | skip
    · rw [ho, y₁, if_neg (by simp), hown, f, y, f₁, y₁, e2]
    · rw [ho, y₁, if_neg (by simp), hown, f, y, f₁, y₁, e2]
    · obtain ⟨rfl, rfl⟩ := conversation_end rep n₁
      rw [hws] at hnext
      have := ih (fun x hx => hall x (by simp [hx])) (before ++ [s]) (history ++ [seen]) _ _ _ _ (.next heard hg del) hready
        (by rw [show environment enc (before ++ [s]) = {} by simp [environment]]; exact hnext)
      rw [if_pos ho, ← this, f, f₁, e2]
      simp

/-- **C111 (part).** The answers of the application to some requests (the `good` ones) are functions of the request (`reply`) and set none of the default headers. A client sends well-formed requests of these on a connection, one after another, none of
them with the header Upgrade; for each of the requests, another client (`own s`) sends it on a connection of its own. All are written to without failures. Then the server writes to the first client what it writes to the other ones, one after another,
until one of the requests after which it closes the connection. Missing: default headers set by a response do not come back on this connection (`C111_defaults_violation`); upgrades. -/
theorem C111_reuse_partial (E : Setup σ ρ) (dec : DecodesChunked E.P) (cfg : Config) (size : cfg.bodyMaxSize < 2 ^ 64) (enc : EncToken) (remote : Bytes) (st : ρ)
    (tame : Tame E st) (reply : Sending → Fields) (good : Sending → Prop)
    (rep : Repeatable E (fun s => SendableWith E.F cfg s ∧ good s) cfg.maxEncodingTokens.toNat enc remote st (fun _ => reply))
    (apart : ∀ s, good s → ∀ h ∈ (reply s).Headers, ∀ d ∈ cfg.defaultHeaders.getD [], E.F.eq d.1 h.Key = false)
    (ss : List Sending) (ok : ∀ s ∈ ss, SendableWith E.F cfg s ∧ good s) (plain : ∀ s ∈ ss, s.head.last b!"upgrade" = none)
    (cl : Client) (quiet : Quiet cl) (writes : cl.wscript = []) (post : List (Bytes × Option GoErr)) (silent : Silent post) (stream : cl.stream = ss.flatMap Sending.bytes)
    (own : Sending → Client) (posts : Sending → List (Bytes × Option GoErr))
    (owns : ∀ s ∈ ss, Quiet (own s) ∧ (own s).wscript = [] ∧ (own s).written = [] ∧ Silent (posts s) ∧ (own s).stream = s.bytes) :
    ∃ frames why, (frames, why) = inTurn (fun s => ((serve E (newConn E.P cfg enc remote st (followedBy (own s) (posts s)))).1.client.written,
        (serve E (newConn E.P cfg enc remote st (followedBy (own s) (posts s)))).2)) ss ∧
      (serve E (newConn E.P cfg enc remote st (followedBy cl post))).1.client.written = cl.written ++ frames ∧
      (serve E (newConn E.P cfg enc remote st (followedBy cl post))).2 = why := by
  obtain ⟨c, why, vs, frames, h1, _, h2, h3⟩ := C22_pipelining E dec cfg size enc remote st tame cl quiet post silent ss (fun s hs => (ok s hs).1) stream
  refine ⟨frames, some why, ?_, by rw [h1]; exact h2, by rw [h1]⟩
  rw [writes] at h3
  refine conversation_own rep (n := cfg.responseBuffSize) (defs := cfg.defaultHeaders.getD []) (fun s hs => apart s hs.2) _ ss ?_ [] [] _ _ _ _ .none (ready_first _ _ _)
    (by simpa [environment, routerAfter] using h3)
  intro s hs
  obtain ⟨q1, q2, q3, q4, q5⟩ := owns s hs
  obtain ⟨c₁, why₁, vs₁, frames₁, k1, _, k2, k3⟩ := C22_pipelining E dec cfg size enc remote st tame (own s) q1 (posts s) q4 [s]
    (fun x hx => by simp only [List.mem_singleton] at hx; subst hx; exact (ok x hs).1) (by rw [q5]; simp)
  rw [q2] at k3
  rw [q3, List.nil_append] at k2
  refine ⟨ok s hs, plain s hs, posts s, vs₁, why₁, by rw [k1], ?_⟩
  rw [k1]
  rw [k2]
  simpa [environment] using k3

/-- If the answers of an application to a request are the same after whatever was sent before, they are a function of the request; and this function has the properties of all answers. -/
theorem repeatable_own {E : Setup σ ρ} {good : Sending → Prop} {T : Nat} {enc : EncToken} {remote : Bytes} {st : ρ} (Q : Fields → Prop) (first : Q Fields.new)
    (two : ∀ before before' history history' post post' s after after' seen seen' world world', HeardSo E good T enc remote post before history → HeardSo E good T enc remote post' before' history' → good s →
      Delivered E T remote post (environment enc before) s after seen world → Delivered E T remote post' (environment enc before') s after' seen' world' →
      ∃ f req req' left left', Answers E (routerAfter E st history) seen world (some (f, req), left) ∧ Answers E (routerAfter E st history') seen' world' (some (f, req'), left'))
    (nice : ∀ before history post s after seen world f req left, HeardSo E good T enc remote post before history → good s → Delivered E T remote post (environment enc before) s after seen world →
      Answers E (routerAfter E st history) seen world (some (f, req), left) →
      Q f ∧ left.hijacked = false ∧ req.Method = seen.Method ∧ req.Connection = seen.Connection ∧ req.Upgrade = seen.Upgrade)
    (error : ∀ history seen (world : Act.World σ), world.hijacked = false →
      ((E.router.onError (routerAfter E st history) seen closeError).1.run E.P E.maxAlloc world).1.isSome ∧
      ((E.router.onError (routerAfter E st history) seen closeError).1.run E.P E.maxAlloc world).2.hijacked = false) :
    ∃ reply, Repeatable E good T enc remote st (fun _ => reply) ∧ ∀ s, good s → Q (reply s) := by
  classical
  refine ⟨fun s => if h : ∃ f before post history after seen world req left, HeardSo E good T enc remote post before history ∧
      Delivered E T remote post (environment enc before) s after seen world ∧ Answers E (routerAfter E st history) seen world (some (f, req), left) then h.choose else Fields.new, ⟨?_, error⟩, ?_⟩
  · intro before history post s after seen world heard hg del
    obtain ⟨f, req, _, left, _, ha, -⟩ := two before before history history post post s after after seen seen world world heard heard hg del del
    have hex : ∃ f before post history after seen world req left, HeardSo E good T enc remote post before history ∧
        Delivered E T remote post (environment enc before) s after seen world ∧ Answers E (routerAfter E st history) seen world (some (f, req), left) :=
      ⟨f, before, post, history, after, seen, world, req, left, heard, del, ha⟩
    obtain ⟨before', post', history', after', seen', world', req', left', heard', del', ha'⟩ := hex.choose_spec
    obtain ⟨f2, q, q', l, l', h1, h2⟩ := two before before' history history' post post' s after after' seen seen' world world' heard heard' hg del del'
    have e : f2 = hex.choose := by
      unfold Answers at h2 ha'
      rw [ha'] at h2
      cases h2
      rfl
    simp only [dif_pos hex]
    rw [← e]
    exact ⟨q, l, h1, (nice _ _ _ _ _ _ _ _ _ _ heard hg del h1).2⟩
  · intro s hg
    dsimp only
    split
    · rename_i h
      obtain ⟨before', post', history', after', seen', world', req', left', heard', del', ha'⟩ := h.choose_spec
      exact (nice _ _ _ _ _ _ _ _ _ _ heard' hg del' ha').1
    · exact first

/-- What requests say, except for the encryption of the connection. -/
theorem delivered_encryption {E : Setup σ ρ} {T : Nat} {remote : Bytes} {post post' : List (Bytes × Option GoErr)} {enc : EncToken} {before before' s after after' seen seen' world world'}
    (h : Delivered E T remote post (environment enc before) s after seen world) (h' : Delivered E T remote post' (environment enc before') s after' seen' world') :
    contents seen = { contents seen' with Env := { (contents seen').Env with Encryption := seen.Env.Encryption } } := by
  have key : Delivered E T remote post' (environment enc before) s after' { seen' with Env := { seen'.Env with Encryption := seen.Env.Encryption } } world' := by
    obtain ⟨c, h1, h2, h3, h4, h5, h6, h7, h8⟩ := h'
    refine ⟨⟨c.method, c.path, c.query, c.proto, c.headers, c.contentLength, c.connection, c.contentType, c.upgrade, c.trailer, c.content, c.transfer, c.chunked⟩, h1, h2, h3, ?_, h5, h6, h7, h8⟩
    dsimp only
    rw [h4, h.env]
    unfold environment
    split <;> split <;> rfl
  exact (delivered_unique h key).trans rfl

/-- **C111 (part)**, for applications of two functions. The handler answers with a function of what the request says and, if it likes, of the whole body (`handlerOf`), and sets none of the default headers; the connection is not encrypted, or the handler does not ask whether it is.
The error handler does not panic and does not hijack the connection when it is told that the connection is being closed. A client sends well-formed requests without the header Upgrade on one connection, and other ones send each of them on a connection of its own.
Then the server writes to the first one what it writes to the other ones, one after another, until one of the requests after which it closes the connection. -/
theorem C111_two_functions_partial (E : Setup σ (Simple.Router Act)) (dec : DecodesChunked E.P) (router : E.router = Simple.impl Act) (cfg : Config) (size : cfg.bodyMaxSize < 2 ^ 64)
    (alloc : cfg.bodyMaxSize.toNat ≤ E.maxAlloc) (large : E.maxAlloc < 2 ^ 63) (enc : EncToken) (remote : Bytes) (g : Request → Asking) (errHandler : Router.Handler Act)
    (closing : ∀ (seen : Request) (world : Act.World σ), world.hijacked = false → ((errHandler { seen with Env := { seen.Env with Error := some closeError } }).run E.P E.maxAlloc world).1.isSome ∧
      ((errHandler { seen with Env := { seen.Env with Error := some closeError } }).run E.P E.maxAlloc world).2.hijacked = false)
    (blind : enc = 0 ∨ ∀ r e, g { r with Env := { r.Env with Encryption := e } } = g r)
    (apart : ∀ r body, ∀ h ∈ ((g r).given body).Headers, ∀ d ∈ cfg.defaultHeaders.getD [], E.F.eq d.1 h.Key = false)
    (ss : List Sending) (ok : ∀ s ∈ ss, SendableWith E.F cfg s) (plain : ∀ s ∈ ss, s.head.last b!"upgrade" = none)
    (cl : Client) (quiet : Quiet cl) (writes : cl.wscript = []) (post : List (Bytes × Option GoErr)) (silent : Silent post) (stream : cl.stream = ss.flatMap Sending.bytes)
    (own : Sending → Client) (posts : Sending → List (Bytes × Option GoErr))
    (owns : ∀ s ∈ ss, Quiet (own s) ∧ (own s).wscript = [] ∧ (own s).written = [] ∧ Silent (posts s) ∧ (own s).stream = s.bytes) :
    ∃ frames why, (frames, why) = inTurn (fun s => ((serve E (newConn E.P cfg enc remote ⟨handlerOf g, errHandler⟩ (followedBy (own s) (posts s)))).1.client.written,
        (serve E (newConn E.P cfg enc remote ⟨handlerOf g, errHandler⟩ (followedBy (own s) (posts s)))).2)) ss ∧
      (serve E (newConn E.P cfg enc remote ⟨handlerOf g, errHandler⟩ (followedBy cl post))).1.client.written = cl.written ++ frames ∧
      (serve E (newConn E.P cfg enc remote ⟨handlerOf g, errHandler⟩ (followedBy cl post))).2 = why := by
  have state : ∀ (st : Simple.Router Act) (history : List Request), routerAfter E st history = st := by
    intro st history
    unfold routerAfter
    induction history with
    | nil => rfl
    | cons a l ih => rw [List.foldl_cons, router]; rw [router] at ih; exact ih
  have same : ∀ r w f r', ((handlerOf g r).run E.P E.maxAlloc w).1 = some (f, r') → r' = r := by
    intro r w f r' h
    unfold handlerOf at h
    split at h
    · cases h; rfl
    · change (Act.run E.P E.maxAlloc (Act.bind (Act.body .bytes _) _) _).1 = _ at h
      simp only [Act.bind, Act.run] at h
      generalize (Body.call E.P E.maxAlloc (w.body, w.client) Body.Call.bytes).1 = a at h
      cases a <;> cases h
      rfl
  have tame : Tame E ⟨handlerOf g, errHandler⟩ := by
    intro history req w f req' hq hr
    rw [state, router] at hr
    rw [same _ _ _ _ hr]
    exact ⟨hq, rfl, rfl⟩
  have alike : ∀ {before before' post post' s after after' seen seen' world world'}, Delivered E cfg.maxEncodingTokens.toNat remote post (environment enc before) s after seen world →
      Delivered E cfg.maxEncodingTokens.toNat remote post' (environment enc before') s after' seen' world' → g (contents seen) = g (contents seen') := by
    intro before before' post post' s after after' seen seen' world world' del del'
    rcases blind with rfl | blind
    · have e : ∀ b, environment 0 b = {} := fun b => by unfold environment; split <;> rfl
      rw [e] at del del'
      rw [delivered_unique del del']
    · rw [delivered_encryption del del', blind]
  obtain ⟨reply, rep, hQ⟩ : ∃ reply, Repeatable E (fun s => SendableWith E.F cfg s ∧ SendableWith E.F cfg s) cfg.maxEncodingTokens.toNat enc remote ⟨handlerOf g, errHandler⟩ (fun _ => reply) ∧
      ∀ s, SendableWith E.F cfg s ∧ SendableWith E.F cfg s → ∀ h ∈ (reply s).Headers, ∀ d ∈ cfg.defaultHeaders.getD [], E.F.eq d.1 h.Key = false := by
    refine repeatable_own (fun f => ∀ h ∈ f.Headers, ∀ d ∈ cfg.defaultHeaders.getD [], E.F.eq d.1 h.Key = false) (by intro h hh; cases hh) ?_ ?_ ?_
    · intro before before' history history' post post' s after after' seen seen' world world' _ _ hg del del'
      obtain ⟨left, h1, -⟩ := handlerOf_run (delivered_holds alloc large hg.1 del) g seen
      obtain ⟨left', h2, -⟩ := handlerOf_run (delivered_holds alloc large hg.1 del') g seen'
      unfold Answers
      rw [state, state, router]
      rw [alike del del'] at h1
      exact ⟨_, _, _, _, _, h1, h2⟩
    · intro before history post s after seen world f req left _ hg del ha
      unfold Answers at ha
      rw [state, router] at ha
      obtain ⟨left', h1, h2⟩ := handlerOf_run (delivered_holds alloc large hg.1 del) g seen
      simp only [Simple.impl] at ha
      rw [h1] at ha
      cases ha
      exact ⟨apart _ _, h2, rfl, rfl, rfl⟩
    · intro history seen world hw
      rw [state, router]
      exact closing seen world hw
  exact C111_reuse_partial E dec cfg size enc remote _ tame reply (SendableWith E.F cfg) rep (fun s hs => hQ s ⟨hs, hs⟩) ss (fun s hs => ⟨ok s hs, ok s hs⟩) plain
    cl quiet writes post silent stream own posts owns

end Indigo.Props
