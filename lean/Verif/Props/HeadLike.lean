/-
C112: the answer to a HEAD request is the head of the answer to the same GET request.
-/
import Verif.Spec.HeadLike
import Verif.Props.Reuse
import Verif.Props.SameProgram
import Verif.Proofs.RouterHead

namespace Indigo.Props
open Indigo.Serve Indigo.Spec Indigo.Serializer
variable {σ ρ : Type}

/-- What a request with HEAD says is what the same one with GET says, but for the method. -/
theorem delivered_head {E : Setup σ ρ} {T : Nat} {remote : Bytes} {post post' : List (Bytes × Option GoErr)} {env s after after' seen seen' world world'}
    (h : Delivered E T remote post env s after seen world) (h' : Delivered E T remote post' env (asHead s) after' seen' world') : contents seen' = contents { seen with Method := .HEAD } := by
  obtain ⟨c, h1, h2, h3, h4, h5, h6, h7, h8⟩ := h
  have key : Delivered E T remote post env (asHead s) after { seen with Method := .HEAD } world := by
    refine ⟨⟨rfl, c.path, c.query, c.proto, c.headers, c.contentLength, c.connection, c.contentType, c.upgrade, c.trailer, c.content, c.transfer, c.chunked⟩, h1, h2, h3, h4, h5, h6, ?_, h8⟩
    obtain ⟨b, hb, hp⟩ := h7
    exact ⟨b, hb, hp⟩
  exact delivered_unique h' key

/-- Two conversations which begin with the same requests. -/
theorem conversation_fork {E : Setup σ ρ} {T : Nat} {remote : Bytes} {post₁ post₂ : List (Bytes × Option GoErr)} {good : Sending → Prop} {enc : EncToken} {st0 : ρ}
    {reply : List Sending → Sending → Fields} (rep : Repeatable E good T enc remote st0 reply) {n : Int} {defs : List (Bytes × Bytes)} (distinct : defs.Pairwise (fun a b => E.F.eq a.1 b.1 = false))
    (s₁ s₂ : Sending) : ∀ (ss : List Sending) (before : List Sending) (history₁ history₂ : List Request) d earlier pre ws vs₁ vs₂ frames₁ frames₂ why₁ why₂,
    HeardSo E good T enc remote post₁ before history₁ → HeardSo E good T enc remote post₂ before history₂ → (∀ s ∈ ss, good s ∧ s.head.last b!"upgrade" = none) → Ready E.F n defs earlier d →
    Conversation E T remote [] post₁ (Silence E) (environment enc before) (routerAfter E st0 history₁) d pre ws (ss ++ [s₁]) vs₁ frames₁ why₁ →
    Conversation E T remote [] post₂ (Silence E) (environment enc before) (routerAfter E st0 history₂) d pre ws (ss ++ [s₂]) vs₂ frames₂ why₂ →
    (frames₁ = frames₂ ∧ why₁ = why₂ ∧ why₁ ≠ .readFailed ∧ ss ≠ []) ∨
    ∃ common d' earlier' ws' history₁' history₂' vs₁' vs₂' f₁ f₂, frames₁ = common ++ f₁ ∧ frames₂ = common ++ f₂ ∧ Ready E.F n defs earlier' d' ∧
      HeardSo E good T enc remote post₁ (before ++ ss) history₁' ∧ HeardSo E good T enc remote post₂ (before ++ ss) history₂' ∧
      Conversation E T remote [] post₁ (Silence E) (environment enc (before ++ ss)) (routerAfter E st0 history₁') d' pre ws' [s₁] vs₁' f₁ why₁ ∧
      Conversation E T remote [] post₂ (Silence E) (environment enc (before ++ ss)) (routerAfter E st0 history₂') d' pre ws' [s₂] vs₂' f₂ why₂ := by
  intro ss
  induction ss with
  | nil =>
    intro before history₁ history₂ d earlier pre ws vs₁ vs₂ frames₁ frames₂ why₁ why₂ heard₁ heard₂ _ hd h₁ h₂
    refine .inr ⟨[], d, earlier, ws, history₁, history₂, vs₁, vs₂, frames₁, frames₂, rfl, rfl, hd, ?_, ?_, ?_, ?_⟩
    all_goals simp only [List.append_nil]
    · exact heard₁
    · exact heard₂
    · exact h₁
    · exact h₂
  | cons s ss ih =>
    intro before history₁ history₂ d earlier pre ws vs₁ vs₂ frames₁ frames₂ why₁ why₂ heard₁ heard₂ hg hd h₁ h₂
    obtain ⟨hgs, hu⟩ := hg s (by simp)
    obtain ⟨seen₁, world₁, after₁, w₁, d₁, hw₁, c₁⟩ := conversation_step rep heard₁ rfl hgs h₁
    obtain ⟨seen₂, world₂, after₂, w₂, d₂, hw₂, c₂⟩ := conversation_step rep heard₂ rfl hgs h₂
    have hc := delivered_unique d₁ d₂
    have hm : seen₁.Method = seen₂.Method := (congrArg Request.Method hc :)
    have hn : seen₁.Connection = seen₂.Connection := (congrArg Request.Connection hc :)
    have hu₁ : seen₁.Upgrade = Proto.Unknown := by rw [d₁.carries.upgrade, hu]; rfl
    have hu₂ : seen₂.Upgrade = Proto.Unknown := by rw [d₂.carries.upgrade, hu]; rfl
    have hp : seen₁.Proto = seen₂.Proto := (congrArg Request.Proto hc :)
    rw [opening_unchanged _ _ _ hu₁] at hw₁ c₁
    rw [opening_unchanged _ _ _ hu₂] at hw₂ c₂
    have hw : w₁ = w₂ := by rw [hw₁, hw₂, hp]; exact write_request _ _ _ _ _ hm hn (hu₁.trans hu₂.symm)
    have hready : Ready E.F n defs (earlier ++ (reply before s).Headers) w₁.ser := by rw [hw₁]; exact ready_write distinct hd _ _ _ _
    subst hw
    rcases c₁ with ⟨o₁, f₁, y₁⟩ | ⟨e₁, o₁, f₁, y₁⟩ | ⟨vs₁', fr₁, o₁, f₁, n₁⟩ <;> rcases c₂ with ⟨o₂, f₂, y₂⟩ | ⟨e₂, o₂, f₂, y₂⟩ | ⟨vs₂', fr₂, o₂, f₂, n₂⟩ <;>
      rw [o₁] at o₂ <;> first | cases o₂ | skip
    · exact .inl ⟨f₁.trans f₂.symm, y₁.trans y₂.symm, by rw [y₁]; simp, by simp⟩
    · exact .inl ⟨f₁.trans f₂.symm, y₁.trans y₂.symm, by rw [y₁]; simp, by simp⟩
    · have henv : environment enc (before ++ [s]) = {} := by simp [environment]
      rcases ih (before ++ [s]) (history₁ ++ [seen₁]) (history₂ ++ [seen₂]) _ _ _ _ _ _ _ _ _ _ (.next heard₁ hgs d₁) (.next heard₂ hgs d₂)
        (fun x hx => hg x (by simp [hx])) hready (by rw [henv]; exact n₁) (by rw [henv]; exact n₂) with ⟨g1, g2, g3, _⟩ | ⟨common, d', earlier', ws', history₁', history₂', vs₁'', vs₂'', g₁, g₂, k1, k2, k3, k4, k5, k6, k7⟩
      · exact .inl ⟨by rw [f₁, f₂, g1], g2, g3, by simp⟩
      · refine .inr ⟨w₁.client.written ++ common, d', earlier', ws', history₁', history₂', vs₁'', vs₂'', g₁, g₂, by rw [f₁, k1, List.append_assoc], by rw [f₂, k2, List.append_assoc], k3, ?_, ?_, ?_, ?_⟩
        all_goals simp only [List.append_assoc, List.cons_append, List.nil_append] at k4 k5 k6 k7
        · exact k4
        · exact k5
        · exact k6
        · exact k7

/-- The response to HEAD of a serializer between two responses. -/
theorem ready_head_only {F : Fold} {n : Int} {defs : List (Bytes × Bytes)} {earlier : List Pair} {d : Serializer} (hd : DefaultsOK F defs) (hr : Ready F n defs earlier d) (p : Proto) {version : Bytes}
    (hp : versionName p = some version) (req : Request) (hm : req.Method = .HEAD) {f : Fields} (hf : ResponseClean f) (c : Client) :
    ∃ text m, (d.write F p req f c).client.written = c.written ++ [text] ∧ readMsg text = some m ∧ m.rest = [] ∧ m.code = f.Code := by
  obtain ⟨hpp, hv⟩ := version_some hp
  cases ha : f.Attachment.content with
  | none =>
    rw [write_plain F d p req f c ha]
    refine ⟨_, _, rfl, (by
      rw [hr.buff, hr.defaults, List.nil_append, if_neg (by simp [hm])]
      exact read_plain F hd _ hf hpp []), rfl, rfl⟩
  | some r =>
    rw [write_attachment F d p req f c r ha]
    have hw1 : (c.write (attachText F d p f)).2.written = c.written ++ [attachText F d p f] := rfl
    have hread := read_attach F hd earlier hf hpp []
    refine ⟨attachText F d p f, _, ?_, (by
      unfold attachText
      rw [hr.buff, hr.defaults, List.nil_append, ← hread, List.append_nil]), rfl, rfl⟩
    simp only
    cases hw : c.write (attachText F d p f) with
    | mk e c1 => rw [hw] at hw1; cases e <;> simpa [hm] using hw1

theorem head_like_get (E : Setup σ ρ) (dec : DecodesChunked E.P) (cfg : Config) (size : cfg.bodyMaxSize < 2 ^ 64) (defaults : DefaultsOK E.F (cfg.defaultHeaders.getD []))
    (enc : EncToken) (remote : Bytes) (st : ρ)
    (tame : Tame E st) (reply : List Sending → Sending → Fields) (good : Sending → Prop)
    (rep : Repeatable E (fun s => SendableWith E.F cfg s ∧ good s) cfg.maxEncodingTokens.toNat enc remote st reply)
    (ss : List Sending) (s : Sending) (ok : ∀ x ∈ ss ++ [s, asHead s], (SendableWith E.F cfg x ∧ good x) ∧ x.head.last b!"upgrade" = none) (get : s.head.method = .GET)
    (same : ∀ post history after seen world post' history' after' seen' world', HeardSo E (fun s => SendableWith E.F cfg s ∧ good s) cfg.maxEncodingTokens.toNat enc remote post ss history →
      Delivered E cfg.maxEncodingTokens.toNat remote post (environment enc ss) s after seen world → HeardSo E (fun s => SendableWith E.F cfg s ∧ good s) cfg.maxEncodingTokens.toNat enc remote post' ss history' →
      Delivered E cfg.maxEncodingTokens.toNat remote post' (environment enc ss) (asHead s) after' seen' world' → reply ss (asHead s) = reply ss s ∧ ResponseClean (reply ss s))
    (cl₁ cl₂ : Client) (quiet₁ : Quiet cl₁) (quiet₂ : Quiet cl₂) (writes : cl₁.wscript = cl₂.wscript)
    (post₁ post₂ : List (Bytes × Option GoErr)) (silent₁ : Silent post₁) (silent₂ : Silent post₂)
    (stream₁ : cl₁.stream = (ss ++ [s]).flatMap Sending.bytes) (stream₂ : cl₂.stream = (ss ++ [asHead s]).flatMap Sending.bytes) :
    (∃ common why, ss ≠ [] ∧ why ≠ .readFailed ∧
      (serve E (newConn E.P cfg enc remote st (followedBy cl₁ post₁))).1.client.written = cl₁.written ++ common ∧
      (serve E (newConn E.P cfg enc remote st (followedBy cl₂ post₂))).1.client.written = cl₂.written ++ common ∧
      (serve E (newConn E.P cfg enc remote st (followedBy cl₁ post₁))).2 = some why ∧
      (serve E (newConn E.P cfg enc remote st (followedBy cl₂ post₂))).2 = some why) ∨
    ∃ common head last m,
      (serve E (newConn E.P cfg enc remote st (followedBy cl₁ post₁))).1.client.written = cl₁.written ++ common ++ last ∧
      (serve E (newConn E.P cfg enc remote st (followedBy cl₂ post₂))).1.client.written = cl₂.written ++ common ++ [head] ∧
      readMsg head = some m ∧ m.rest = [] ∧ m.code = (reply ss s).Code ∧
      ((reply ss s).Attachment.content = none → last = [head ++ (reply ss s).Body]) ∧
      ((reply ss s).Attachment.content ≠ none → [head] <+: last) := by
  obtain ⟨c₁, why₁, vs₁, frames₁, h1, _, h2, h3⟩ := C22_pipelining E dec cfg size enc remote st tame cl₁ quiet₁ post₁ silent₁ (ss ++ [s])
    (fun x hx => (ok x (by simp at hx ⊢; rcases hx with h | h <;> simp [h])).1.1) stream₁
  obtain ⟨c₂, why₂, vs₂, frames₂, k1, _, k2, k3⟩ := C22_pipelining E dec cfg size enc remote st tame cl₂ quiet₂ post₂ silent₂ (ss ++ [asHead s])
    (fun x hx => (ok x (by simp at hx ⊢; rcases hx with h | h <;> simp [h])).1.1) stream₂
  rw [writes] at h3
  rcases conversation_fork rep (n := cfg.responseBuffSize) (defs := cfg.defaultHeaders.getD []) defaults.distinct s (asHead s) ss [] [] [] _ [] _ _ _ _ _ _ _ _ .none .none
    (fun x hx => ⟨(ok x (by simp [hx])).1, (ok x (by simp [hx])).2⟩) (ready_first _ _ _) (by simpa [environment, routerAfter] using h3) (by simpa [environment, routerAfter] using k3) with
    ⟨e1, e2, e3, e4⟩ | ⟨common, d', earlier', ws', history₁', history₂', vs₁', vs₂', f₁, f₂, r1, r2, r3, r4, r5, r6, r7⟩
  · exact .inl ⟨frames₁, why₁, e4, e3, by rw [h1]; exact h2, by rw [k1, e1]; exact k2, by rw [h1], by rw [k1, e2]⟩
  · right
    rw [List.nil_append] at r4 r5 r6 r7
    obtain ⟨gs, us⟩ := ok s (by simp)
    obtain ⟨gh, uh⟩ := ok (asHead s) (by simp)
    obtain ⟨seen₁, world₁, after₁, w₁, d₁, hw₁, c₁⟩ := conversation_step rep r4 rfl gs r6
    obtain ⟨seen₂, world₂, after₂, w₂, d₂, hw₂, c₂⟩ := conversation_step rep r5 rfl gh r7
    obtain ⟨same, clean⟩ := same _ _ _ _ _ _ _ _ _ _ r4 d₁ r5 d₂
    have hc := delivered_head d₁ d₂
    have hm₁ : seen₁.Method = .GET := d₁.carries.method.trans get
    have hm₂ : seen₂.Method = .HEAD := d₂.carries.method
    have hn : seen₂.Connection = seen₁.Connection := (congrArg Request.Connection hc :)
    have hu₁ : seen₁.Upgrade = Proto.Unknown := by rw [d₁.carries.upgrade, us]; rfl
    have hu₂ : seen₂.Upgrade = Proto.Unknown := by rw [d₂.carries.upgrade, uh]; rfl
    have hp : seen₂.Proto = seen₁.Proto := (congrArg Request.Proto hc :)
    rw [opening_unchanged _ _ _ hu₁] at hw₁ c₁
    rw [opening_unchanged _ _ _ hu₂, same, hp] at hw₂
    rw [opening_unchanged _ _ _ hu₂] at c₂
    have e₁ : f₁ = w₁.client.written := by
      rcases c₁ with ⟨_, f, _⟩ | ⟨_, _, f, _⟩ | ⟨_, _, _, f, n⟩
      · exact f
      · exact f
      · rw [(conversation_end rep n).1, List.append_nil] at f; exact f
    have e₂ : f₂ = w₂.client.written := by
      rcases c₂ with ⟨_, f, _⟩ | ⟨_, _, f, _⟩ | ⟨_, _, _, f, n⟩
      · exact f
      · exact f
      · rw [(conversation_end rep n).1, List.append_nil] at f; exact f
    obtain ⟨version, hv⟩ := version_name d₁.carries.proto
    obtain ⟨head, hh, hplain, hatt⟩ := C28_head_response E.F d' seen₁.Proto seen₁ (by rw [hm₁]; simp) (reply ss s) { wscript := ws' }
    obtain ⟨text, m, ht, hmsg, hrest, hcode⟩ := ready_head_only defaults r3 seen₁.Proto hv { seen₁ with Method := .HEAD } rfl clean { wscript := ws' }
    rw [hh] at ht
    have ht : head = text := by simpa using ht
    subst ht
    rw [write_request E.F d' seen₁.Proto (r := seen₂) (r' := { seen₁ with Method := .HEAD }) _ _ hm₂ hn (hu₂.trans hu₁.symm)] at hw₂
    rw [← hw₂] at hh
    rw [← hw₁] at hplain hatt
    simp only [List.nil_append] at hh hplain hatt
    refine ⟨common, head, f₁, m, ?_, ?_, hmsg, hrest, hcode, ?_, ?_⟩
    · rw [h1, List.append_assoc, ← r1]; exact h2
    · rw [k1, List.append_assoc, ← hh, ← e₂, ← r2]; exact k2
    · rw [e₁]; exact hplain
    · rw [e₁]; exact hatt

/-- **C112.** The answers of the application to some requests (the `good` ones) are functions of what is sent (`Repeatable`), and after the requests `ss` it answers `s`, a request with GET, as the same one with HEAD. Two clients send the well-formed requests `ss`, and then one of them sends
`s` and the other one `s` with HEAD, cut into pieces in any ways; none has the header Upgrade; writing to the clients has the same results. Then, unless serving ends before that last request (for both clients, with the same written to both of them), what is written to both is the same up to the answer to it;
this answer is a complete head without anything after it for HEAD, and begins with that very head for GET; if there is no attachment, the head and the body are all of it. -/
theorem C112_head_like_get (E : Setup σ ρ) (dec : DecodesChunked E.P) (cfg : Config) (size : cfg.bodyMaxSize < 2 ^ 64) (defaults : DefaultsOK E.F (cfg.defaultHeaders.getD []))
    (enc : EncToken) (remote : Bytes) (st : ρ)
    (tame : Tame E st) (reply : List Sending → Sending → Fields) (good : Sending → Prop)
    (rep : Repeatable E (fun s => SendableWith E.F cfg s ∧ good s) cfg.maxEncodingTokens.toNat enc remote st reply)
    (ss : List Sending) (s : Sending) (ok : ∀ x ∈ ss ++ [s, asHead s], (SendableWith E.F cfg x ∧ good x) ∧ x.head.last b!"upgrade" = none) (get : s.head.method = .GET)
    (same : reply ss (asHead s) = reply ss s) (clean : ResponseClean (reply ss s))
    (cl₁ cl₂ : Client) (quiet₁ : Quiet cl₁) (quiet₂ : Quiet cl₂) (writes : cl₁.wscript = cl₂.wscript)
    (post₁ post₂ : List (Bytes × Option GoErr)) (silent₁ : Silent post₁) (silent₂ : Silent post₂)
    (stream₁ : cl₁.stream = (ss ++ [s]).flatMap Sending.bytes) (stream₂ : cl₂.stream = (ss ++ [asHead s]).flatMap Sending.bytes) :
    (∃ common why, ss ≠ [] ∧ why ≠ .readFailed ∧
      (serve E (newConn E.P cfg enc remote st (followedBy cl₁ post₁))).1.client.written = cl₁.written ++ common ∧
      (serve E (newConn E.P cfg enc remote st (followedBy cl₂ post₂))).1.client.written = cl₂.written ++ common ∧
      (serve E (newConn E.P cfg enc remote st (followedBy cl₁ post₁))).2 = some why ∧
      (serve E (newConn E.P cfg enc remote st (followedBy cl₂ post₂))).2 = some why) ∨
    ∃ common head last m,
      (serve E (newConn E.P cfg enc remote st (followedBy cl₁ post₁))).1.client.written = cl₁.written ++ common ++ last ∧
      (serve E (newConn E.P cfg enc remote st (followedBy cl₂ post₂))).1.client.written = cl₂.written ++ common ++ [head] ∧
      readMsg head = some m ∧ m.rest = [] ∧ m.code = (reply ss s).Code ∧
      ((reply ss s).Attachment.content = none → last = [head ++ (reply ss s).Body]) ∧
      ((reply ss s).Attachment.content ≠ none → [head] <+: last) :=
  head_like_get E dec cfg size defaults enc remote st tame reply good rep ss s ok get (fun _ _ _ _ _ _ _ _ _ _ _ _ _ _ => ⟨same, clean⟩)
    cl₁ cl₂ quiet₁ quiet₂ writes post₁ post₂ silent₁ silent₂ stream₁ stream₂

open Indigo.Router Indigo.Spec.Router in
/-- **C112**, for programs of the built-in router. There is no handler for HEAD; the handlers answer with functions of what the request says and of the whole body (`Determined`), and do not care whether the method is GET or HEAD (`HeadBlind`); their answers have no line breaks in what goes into heads if the list of allowed methods has none, and the mutators do not put any there;
the handlers do not hijack the connection and leave some fields of the request alone; what the mutators do depends on what the request says only, but not on its method, and they leave alone the same fields and do not make paths empty; the error handler which is called when the connection is being closed does not panic.
Two clients send well-formed requests `ss`, and then one of them sends `s`, with GET, and the other one the same with HEAD, cut into pieces in any ways; none has the header Upgrade; writing to the clients has the same results.
Then, unless serving ends before that last request, what is written to both is the same up to the answer to it; this answer is a complete head without anything after it for HEAD, and begins with that very head for GET. -/
theorem C112_program {text : GoErr → Bytes} {env : Env Act} {rt : Runtime Act}
    (E : Setup σ (Runtime Act)) (dec : DecodesChunked E.P) (router : E.router = Router.impl E.F .panic) (cfg : Config) (size : cfg.bodyMaxSize < 2 ^ 64)
    (defaults : DefaultsOK E.F (cfg.defaultHeaders.getD []))
    (alloc : cfg.bodyMaxSize.toNat ≤ E.maxAlloc) (large : E.maxAlloc < 2 ^ 63) (enc : EncToken) (remote : Bytes)
    (ops : List (Op Act)) (made : make E.F text env ops = some rt) (noHead : ∀ d ∈ declared ops, d.1.2 ≠ .HEAD)
    (mutators : ∀ r, Untouched r (mutated ops r)) (paths : ∀ r : Request, r.Path ≠ [] → (mutated ops r).Path ≠ [])
    (respect : ∀ r r', contents r = contents r' → contents (mutated ops r) = contents (mutated ops r'))
    (allow : ∀ r, NoBreak r.Env.AllowedMethods → NoBreak (mutated ops r).Env.AllowedMethods)
    (methods : ∀ r : Request, r.Method = .GET → mutated ops { r with Method := .HEAD } = { mutated ops r with Method := .HEAD })
    (polite : AllHandlers E.F text ops (Polite E)) (determined : AllHandlers E.F text ops (Determined E)) (blind : AllHandlers E.F text ops (HeadBlind E))
    (clean : AllHandlers E.F text ops (fun h => ∀ r w f r', NoBreak r.Env.AllowedMethods → ((h r).run E.P E.maxAlloc w).1 = some (f, r') → ResponseClean f))
    (closing : ∀ h r (world : Act.World σ), handlerFor E.F text ops Status.ErrCloseConnection.Code = some h → world.hijacked = false →
      ((h (failing r closeError)).run E.P E.maxAlloc world).1.isSome)
    (ss : List Sending) (s : Sending) (ok : ∀ x ∈ ss ++ [s, asHead s], SendableWith E.F cfg x ∧ x.head.last b!"upgrade" = none) (get : s.head.method = .GET)
    (cl₁ cl₂ : Client) (quiet₁ : Quiet cl₁) (quiet₂ : Quiet cl₂) (writes : cl₁.wscript = cl₂.wscript)
    (post₁ post₂ : List (Bytes × Option GoErr)) (silent₁ : Silent post₁) (silent₂ : Silent post₂)
    (stream₁ : cl₁.stream = (ss ++ [s]).flatMap Sending.bytes) (stream₂ : cl₂.stream = (ss ++ [asHead s]).flatMap Sending.bytes) :
    (∃ common why, ss ≠ [] ∧ why ≠ .readFailed ∧
      (serve E (newConn E.P cfg enc remote rt (followedBy cl₁ post₁))).1.client.written = cl₁.written ++ common ∧
      (serve E (newConn E.P cfg enc remote rt (followedBy cl₂ post₂))).1.client.written = cl₂.written ++ common ∧
      (serve E (newConn E.P cfg enc remote rt (followedBy cl₁ post₁))).2 = some why ∧
      (serve E (newConn E.P cfg enc remote rt (followedBy cl₂ post₂))).2 = some why) ∨
    ∃ common head last m body,
      (serve E (newConn E.P cfg enc remote rt (followedBy cl₁ post₁))).1.client.written = cl₁.written ++ common ++ last ∧
      (serve E (newConn E.P cfg enc remote rt (followedBy cl₂ post₂))).1.client.written = cl₂.written ++ common ++ [head] ∧
      readMsg head = some m ∧ m.rest = [] ∧ last.flatten = head ++ body := by
  have tame : Tame E rt := program_tame router made mutators polite
  obtain ⟨reply, rep⟩ := program_repeatable router alloc large enc remote made mutators paths respect polite determined closing
  obtain ⟨b, state⟩ := program_state (cfg := cfg) router enc remote made paths respect ss
  have hs := (ok s (by simp)).1
  have hh := (ok (asHead s) (by simp)).1
  have key := fun same => head_like_get E dec cfg size defaults enc remote rt tame reply (fun _ => True) rep ss s (fun x hx => ⟨⟨(ok x hx).1, trivial⟩, (ok x hx).2⟩) get same
    cl₁ cl₂ quiet₁ quiet₂ writes post₁ post₂ silent₁ silent₂ stream₁ stream₂
  refine (fun k => ?_) (key ?_)
  · rcases k with h | ⟨common, head, last, m, h1, h2, h3, h4, -, h6, h7⟩
    · exact .inl h
    right
    by_cases ha : (reply ss s).Attachment.content = none
    · exact ⟨common, head, last, m, (reply ss s).Body, h1, h2, h3, h4, by rw [h6 ha]; simp⟩
    · obtain ⟨t, rfl⟩ := h7 ha
      exact ⟨common, head, _, m, t.flatten, h1, h2, h3, h4, by simp⟩
  · intro post history after seen world post' history' after' seen' world' heard del heard' del'
    have hm : seen.Method = .GET := del.carries.method.trans get
    have notEmpty : (arriving ops seen).Path ≠ [] := by
      intro h
      refine paths seen ?_ (normalize_empty h)
      rw [del.path]
      exact unescapes_ne hs.path hs.ok.target.1
    have notEmpty' : (arriving ops { seen with Method := .HEAD }).Path ≠ [] := by
      simp only [arriving, methods seen hm]
      exact notEmpty
    obtain ⟨h, r, hk, ⟨hr, hcl⟩, k1, k2⟩ := request_head made (C41_always_one E.F text ops) noHead
      (fun r hr => ⟨(mutators r).method.trans hr, methods r hr⟩) b seen hm notEmpty (allow seen)
    obtain ⟨q, left, a1, -⟩ := rep.request _ _ _ _ _ _ _ heard ⟨hs, trivial⟩ del
    obtain ⟨q', left', a2, -⟩ := rep.request _ _ _ _ _ _ _ heard' ⟨hh, trivial⟩ del'
    unfold Answers at a1 a2
    rw [state _ _ heard, router] at a1
    rw [state _ _ heard', router] at a2
    simp only [Router.impl, k1] at a1
    have holds := delivered_holds alloc large hs del
    have holds' : Holds E ⟨world'.1, world'.2, false⟩ (asHead s).body := delivered_holds alloc large hh del'
    obtain ⟨f, x, x', l, l', b1, b2⟩ := program_good blind hk r _ _ hr holds
    rw [show (h r).run E.P E.maxAlloc ⟨world.1, world.2, false⟩ = _ from a1] at b1
    cases b1
    refine ⟨?_, program_good clean hk r ⟨world.1, world.2, false⟩ _ q (hcl ?_) (congrArg Prod.fst a1)⟩
    rotate_left
    · rw [del.env, environment]
      split <;> simp [NoBreak]
    obtain ⟨D, ⟨h', hk', hall⟩ | ⟨fb, g, hall⟩⟩ := request_same made (C41_always_one E.F text ops) respect { seen with Method := .HEAD } notEmpty'
    · obtain ⟨r0, c1, c2⟩ := hall { seen with Method := .HEAD } b rfl
      obtain ⟨r1, c3, c4⟩ := hall seen' b (delivered_head del del')
      rw [k2] at c1
      simp only [Option.some.injEq, Prod.mk.injEq, and_true] at c1
      simp only [Router.impl, c3] at a2
      obtain ⟨f', _, _, _, _, g1, g2⟩ := program_good determined hk' r0 r1 _ _ _ (c2.trans c4.symm) holds holds'
      rw [← c1, b2] at g1
      cases g1
      rw [show (h' r1).run E.P E.maxAlloc ⟨world'.1, world'.2, false⟩ = _ from a2] at g2
      simp only [Prod.mk.injEq, Option.some.injEq] at g2
      exact g2.1.1
    · obtain ⟨r0, c1, c2⟩ := hall { seen with Method := .HEAD } b rfl
      obtain ⟨r1, c3, c4⟩ := hall seen' b (delivered_head del del')
      rw [k2] at c1
      simp only [Option.some.injEq, Prod.mk.injEq] at c1
      simp only [Router.impl, c3] at a2
      rw [c1.1] at b2
      have b3 := congrArg Prod.fst b2
      have a3 := congrArg Prod.fst a2
      simp only [pure, Option.getD_some, Act.run, Option.some.injEq, Prod.mk.injEq] at b3 a3
      exact a3.1.symm.trans b3.1

/-- **C112**, for applications of two functions. The handler answers with a function of what the request says and, if it likes, of the whole body (`handlerOf`), and does not care whether the method is GET or HEAD; its answers have no line breaks in what goes into heads. The error handler does not panic and
does not hijack the connection when it is told that the connection is being closed. Two clients send well-formed requests `ss`, and then one of them sends `s`, with GET, and the other one the same with HEAD. Then, unless serving ends before that last request, what is written to both is the same up to the answer to it;
this answer is a complete head without anything after it for HEAD, and begins with that very head for GET. -/
theorem C112_two_functions (E : Setup σ (Simple.Router Act)) (dec : DecodesChunked E.P) (router : E.router = Simple.impl Act) (cfg : Config) (size : cfg.bodyMaxSize < 2 ^ 64)
    (defaults : DefaultsOK E.F (cfg.defaultHeaders.getD []))
    (alloc : cfg.bodyMaxSize.toNat ≤ E.maxAlloc) (large : E.maxAlloc < 2 ^ 63) (enc : EncToken) (remote : Bytes) (g : Request → Asking) (errHandler : Router.Handler Act)
    (blind : ∀ (r : Request) body, r.Method = .GET → (g { r with Method := .HEAD }).given body = (g r).given body) (clean : ∀ r body, ResponseClean ((g r).given body))
    (closing : ∀ (seen : Request) (world : Act.World σ), world.hijacked = false → ((errHandler { seen with Env := { seen.Env with Error := some closeError } }).run E.P E.maxAlloc world).1.isSome ∧
      ((errHandler { seen with Env := { seen.Env with Error := some closeError } }).run E.P E.maxAlloc world).2.hijacked = false)
    (ss : List Sending) (s : Sending) (ok : ∀ x ∈ ss ++ [s, asHead s], SendableWith E.F cfg x ∧ x.head.last b!"upgrade" = none) (get : s.head.method = .GET)
    (cl₁ cl₂ : Client) (quiet₁ : Quiet cl₁) (quiet₂ : Quiet cl₂) (writes : cl₁.wscript = cl₂.wscript)
    (post₁ post₂ : List (Bytes × Option GoErr)) (silent₁ : Silent post₁) (silent₂ : Silent post₂)
    (stream₁ : cl₁.stream = (ss ++ [s]).flatMap Sending.bytes) (stream₂ : cl₂.stream = (ss ++ [asHead s]).flatMap Sending.bytes) :
    (∃ common why, ss ≠ [] ∧ why ≠ .readFailed ∧
      (serve E (newConn E.P cfg enc remote ⟨handlerOf g, errHandler⟩ (followedBy cl₁ post₁))).1.client.written = cl₁.written ++ common ∧
      (serve E (newConn E.P cfg enc remote ⟨handlerOf g, errHandler⟩ (followedBy cl₂ post₂))).1.client.written = cl₂.written ++ common ∧
      (serve E (newConn E.P cfg enc remote ⟨handlerOf g, errHandler⟩ (followedBy cl₁ post₁))).2 = some why ∧
      (serve E (newConn E.P cfg enc remote ⟨handlerOf g, errHandler⟩ (followedBy cl₂ post₂))).2 = some why) ∨
    ∃ common head last m body,
      (serve E (newConn E.P cfg enc remote ⟨handlerOf g, errHandler⟩ (followedBy cl₁ post₁))).1.client.written = cl₁.written ++ common ++ last ∧
      (serve E (newConn E.P cfg enc remote ⟨handlerOf g, errHandler⟩ (followedBy cl₂ post₂))).1.client.written = cl₂.written ++ common ++ [head] ∧
      readMsg head = some m ∧ m.rest = [] ∧ last.flatten = head ++ body := by
  obtain ⟨tame, reply, rep⟩ := functions_repeatable router alloc large enc remote g errHandler closing
  have hs := (ok s (by simp)).1
  have hh := (ok (asHead s) (by simp)).1
  have key := fun same => head_like_get E dec cfg size defaults enc remote _ tame reply (fun _ => True) rep ss s (fun x hx => ⟨⟨(ok x hx).1, trivial⟩, (ok x hx).2⟩) get same
    cl₁ cl₂ quiet₁ quiet₂ writes post₁ post₂ silent₁ silent₂ stream₁ stream₂
  refine (fun k => ?_) (key ?_)
  · rcases k with h | ⟨common, head, last, m, h1, h2, h3, h4, -, h6, h7⟩
    · exact .inl h
    right
    by_cases ha : (reply ss s).Attachment.content = none
    · exact ⟨common, head, last, m, (reply ss s).Body, h1, h2, h3, h4, by rw [h6 ha]; simp⟩
    · obtain ⟨t, rfl⟩ := h7 ha
      exact ⟨common, head, _, m, t.flatten, h1, h2, h3, h4, by simp⟩
  · intro post history after seen world post' history' after' seen' world' heard del heard' del'
    have hm : seen.Method = .GET := del.carries.method.trans get
    obtain ⟨q, left, a1, -⟩ := rep.request _ _ _ _ _ _ _ heard ⟨hs, trivial⟩ del
    obtain ⟨q', left', a2, -⟩ := rep.request _ _ _ _ _ _ _ heard' ⟨hh, trivial⟩ del'
    unfold Answers at a1 a2
    rw [functions_state router, router] at a1 a2
    obtain ⟨l, b1, -⟩ := handlerOf_run (delivered_holds alloc large hs del) g seen
    obtain ⟨l', b2, -⟩ := handlerOf_run (delivered_holds alloc large hh del') g seen'
    have e1 := (congrArg Prod.fst a1).symm.trans (congrArg Prod.fst b1)
    have e2 := (congrArg Prod.fst a2).symm.trans (congrArg Prod.fst b2)
    simp only [Option.some.injEq, Prod.mk.injEq] at e1 e2
    refine ⟨?_, by rw [e1.1]; exact clean _ _⟩
    rw [e1.1, e2.1, delivered_head del del']
    exact blind (contents seen) s.body hm

open Indigo.Router Indigo.Spec.Router

theorem headBlind_pure {ρ : Type} (E : Setup σ ρ) (h : Handler Act) (g : Request → Fields) (hh : ∀ r, h r = pure (g r, r))
    (hg : ∀ r : Request, r.Method = .GET → g { r with Method := .HEAD } = g r) : HeadBlind E h := by
  intro r w body hr _
  rw [hh, hh, hg r hr]
  exact ⟨_, _, _, _, _, rfl, rfl⟩

theorem handlerOf_headBlind {ρ : Type} (E : Setup σ ρ) (g : Request → Asking)
    (hg : ∀ (r : Request) body, r.Method = .GET → (g { r with Method := .HEAD }).given body = (g r).given body) : HeadBlind E (handlerOf g) := by
  intro r w body hr hw
  obtain ⟨l, b1, -⟩ := handlerOf_run hw g r
  obtain ⟨l', b2, -⟩ := handlerOf_run hw g { r with Method := .HEAD }
  refine ⟨_, _, { r with Method := .HEAD }, _, l', b1, ?_⟩
  rw [b2, ← hg (contents r) body hr]
  rfl

/-- The answer of the program below: a variable of the path, and the body. -/
def serving (r : Request) : Asking := .whole (fun d _ => Fields.new.bytes ((r.Params.pairs.head?.map Pair.Value).getD [] ++ d.getD []))

/-- A program which answers with the body and a variable of the path, and has no handlers for HEAD. -/
def waiter : List (Op Act) :=
  [.route 0 .POST b!"/menu/{name}" (handlerOf serving) [], .route 0 .GET b!"/menu/{name}" (handlerOf serving) [],
   .alias 0 b!"/a" b!"/menu/tea", .alias 0 b!"/" b!"/menu/all"]

theorem waiter_made : (make dinerSetup.F (fun _ => []) sampleEnv waiter).isSome = true := by decide +kernel

theorem heading_ok : SendableWith Fold.ascii Config.default (asHead gotten) where
  ok := ⟨by decide, by decide, by intro q h; cases h; decide, ⟨⟨_, 46, .inl ⟨rfl, rfl⟩⟩, by decide, by decide⟩, by
    simp only [asHead, gotten, List.mem_singleton, forall_eq]
    exact ⟨by decide, by decide, by decide, by decide, by decide, by decide⟩⟩
  clean := by unfold Head.CleanNames; decide
  noBareEmpty := by unfold Head.NoBareEmpty; decide
  fits := ⟨by decide +kernel, by decide +kernel, by decide +kernel, by decide +kernel, by decide +kernel⟩
  path := pct_lit (by decide)
  framed := .sized (by decide +kernel) rfl (by decide)
  body := by decide +kernel

theorem fields_clean {f : Fields} (new : ResponseClean Fields.new) (h1 : f.Headers = Fields.new.Headers) (h2 : f.ContentType = Fields.new.ContentType)
    (h3 : f.TransferEncoding = Fields.new.TransferEncoding) (h4 : f.Cookies = Fields.new.Cookies) : ResponseClean f :=
  ⟨h1 ▸ new.headers, h2 ▸ new.contentType, h3 ▸ new.transferEncoding, h4 ▸ new.cookies⟩

theorem new_clean : ResponseClean Fields.new :=
  ⟨fun h hh => (List.not_mem_nil hh).elim, by unfold NoBreak; decide +kernel, by unfold NoBreak; decide +kernel, fun c hc => (List.not_mem_nil hc).elim⟩

theorem bytes_clean (x : Bytes) : ResponseClean (Fields.new.bytes x) :=
  fields_clean new_clean rfl rfl rfl rfl

theorem serving_clean {ρ : Type} (E : Setup σ ρ) (r : Request) (w : Act.World σ) (f : Fields) (r' : Request)
    (h : ((handlerOf serving r).run E.P E.maxAlloc w).1 = some (f, r')) : ResponseClean f := by
  unfold handlerOf serving at h
  change (Act.run E.P E.maxAlloc (Act.bind (Act.body .bytes _) _) _).1 = _ at h
  simp only [Act.bind, Act.run] at h
  generalize (Body.call E.P E.maxAlloc (w.body, w.client) Body.Call.bytes).1 = a at h
  cases a <;> cases h
  exact bytes_clean _

set_option maxRecDepth 200000 in
/-- C112: such a program, a POST request and a GET request; the GET request comes in one piece, the HEAD request in four. -/
example : ∃ rt cl₁ cl₂, make dinerSetup.F (fun _ => []) sampleEnv waiter = some rt ∧ DefaultsOK dinerSetup.F (Config.default.defaultHeaders.getD []) ∧
    (∀ d ∈ declared waiter, d.1.2 ≠ .HEAD) ∧
    (∀ r, Untouched r (mutated waiter r)) ∧ (∀ r : Request, r.Path ≠ [] → (mutated waiter r).Path ≠ []) ∧
    (∀ r r', contents r = contents r' → contents (mutated waiter r) = contents (mutated waiter r')) ∧
    (∀ r, NoBreak r.Env.AllowedMethods → NoBreak (mutated waiter r).Env.AllowedMethods) ∧
    (∀ r : Request, r.Method = .GET → mutated waiter { r with Method := .HEAD } = { mutated waiter r with Method := .HEAD }) ∧
    AllHandlers dinerSetup.F (fun _ => []) waiter (Polite dinerSetup) ∧ AllHandlers dinerSetup.F (fun _ => []) waiter (Determined dinerSetup) ∧
    AllHandlers dinerSetup.F (fun _ => []) waiter (HeadBlind dinerSetup) ∧
    AllHandlers dinerSetup.F (fun _ => []) waiter (fun h => ∀ r w f r', NoBreak r.Env.AllowedMethods → ((h r).run dinerSetup.P dinerSetup.maxAlloc w).1 = some (f, r') → ResponseClean f) ∧
    (∀ h r (world : Act.World CS), handlerFor dinerSetup.F (fun _ => []) waiter Status.ErrCloseConnection.Code = some h → world.hijacked = false →
      ((h (failing r closeError)).run dinerSetup.P dinerSetup.maxAlloc world).1.isSome) ∧
    (∀ s ∈ [posted] ++ [gotten, asHead gotten], SendableWith dinerSetup.F Config.default s ∧ s.head.last b!"upgrade" = none) ∧
    Quiet cl₁ ∧ Quiet cl₂ ∧ cl₁.wscript = cl₂.wscript ∧ Silent [] ∧
    cl₁.stream = ([posted] ++ [gotten]).flatMap Sending.bytes ∧ cl₂.stream = ([posted] ++ [asHead gotten]).flatMap Sending.bytes ∧
    (readAnswers [.POST, .GET]
      (serve dinerSetup (newConn dinerSetup.P Config.default 1 b!"1.2.3.4" rt (followedBy cl₁ []))).1.client.written.flatten).map
      (List.map (fun a => (a.1.isSome, a.2.code, a.2.rest))) = some [(false, 200, b!"teahello"), (false, 200, b!"all")] ∧
    (serve dinerSetup (newConn dinerSetup.P Config.default 1 b!"1.2.3.4" rt (followedBy cl₁ []))).1.client.written.flatten =
      (serve dinerSetup (newConn dinerSetup.P Config.default 1 b!"1.2.3.4" rt (followedBy cl₂ []))).1.client.written.flatten ++ b!"all" := by
  have hd : declared waiter = [((b!"/menu/{name}", .POST), handlerOf serving), ((b!"/menu/{name}", .GET), handlerOf serving)] := rfl
  have he : errorHandlers (Spec.Router.defaults dinerSetup.F (fun _ => [])) waiter = [(0, defaultAllErrorsHandler (fun _ => [])),
      (405, defaultMethodNotAllowedHandler Fold.ascii (fun _ => []))] := rfl
  have hm : ∀ r, mutated waiter r = aliasMutator b!"/" b!"/menu/all" (aliasMutator b!"/a" b!"/menu/tea" r) := fun _ => rfl
  refine ⟨(make dinerSetup.F (fun _ => []) sampleEnv waiter).get waiter_made, arrive [posted.bytes ++ gotten.bytes],
    arrive [posted.bytes.take 3, posted.bytes.drop 3 ++ (asHead gotten).bytes.take 4, ((asHead gotten).bytes.drop 4).take 9, (asHead gotten).bytes.drop 13],
    by simp, ?_, ?_, ?_, ?_, ?_, ?_, ?_, ⟨?_, (fun c (hc : c ∈ []) => (List.not_mem_nil hc).elim), ?_⟩, ⟨?_, (fun c (hc : c ∈ []) => (List.not_mem_nil hc).elim), ?_⟩,
    ⟨?_, (fun c (hc : c ∈ []) => (List.not_mem_nil hc).elim), ?_⟩, ⟨?_, (fun c (hc : c ∈ []) => (List.not_mem_nil hc).elim), ?_⟩, ?_, ?_,
    by unfold Quiet; decide +kernel, by unfold Quiet; decide +kernel, rfl, ?_, by decide +kernel, by decide +kernel, by decide +kernel, by decide +kernel⟩
  · exact default_defaults
  · rw [hd]
    intro d h
    simp only [List.mem_cons, List.not_mem_nil, or_false] at h
    rcases h with rfl | rfl <;> simp
  · intro r
    have key : ∀ (x y : Bytes) (r : Request), Untouched r (aliasMutator x y r) := by
      intro x y r
      unfold aliasMutator
      split <;> exact ⟨rfl, rfl, rfl, rfl, rfl, id⟩
    rw [hm]
    exact (key _ _ _).trans (key _ _ _)
  · intro r h
    have key : ∀ (x y : Bytes) (r : Request), y ≠ [] → r.Path ≠ [] → (aliasMutator x y r).Path ≠ [] := by
      intro x y r hy hr
      unfold aliasMutator
      split
      · exact hy
      · exact hr
    rw [hm]
    exact key _ _ _ (by decide) (key _ _ _ (by decide) h)
  · intro r r' h
    have key : ∀ (x y : Bytes) (r r' : Request), contents r = contents r' → contents (aliasMutator x y r) = contents (aliasMutator x y r') := by
      intro x y r r' h
      have hp : r.Path = r'.Path := (congrArg Request.Path h :)
      unfold aliasMutator
      rw [← hp]
      split
      · exact contents_env (contents_path h (fun _ => y)) (fun v => { v with AliasFrom := x })
      · exact h
    rw [hm, hm]
    exact key _ _ _ _ (key _ _ _ _ h)
  · intro r h
    have key : ∀ (x y : Bytes) (r : Request), NoBreak r.Env.AllowedMethods → NoBreak (aliasMutator x y r).Env.AllowedMethods := by
      intro x y r hr
      unfold aliasMutator
      split <;> exact hr
    rw [hm]
    exact key _ _ _ (key _ _ _ h)
  · intro r _
    have key : ∀ (x y : Bytes) (r : Request), aliasMutator x y { r with Method := .HEAD } = { aliasMutator x y r with Method := .HEAD } := by
      intro x y r
      unfold aliasMutator
      dsimp only
      split <;> rfl
    rw [hm, hm, key, key]
  · rw [hd]
    intro d h
    simp only [List.mem_cons, List.not_mem_nil, or_false] at h
    rcases h with rfl | rfl <;> exact polite_handlerOf dinerSetup serving
  · intro e he'
    rw [he] at he'
    simp only [List.mem_cons, List.not_mem_nil, or_false] at he'
    rcases he' with rfl | rfl <;> exact polite_pure _ _ (fun r => ⟨_, rfl⟩)
  · rw [hd]
    intro d h
    simp only [List.mem_cons, List.not_mem_nil, or_false] at h
    rcases h with rfl | rfl <;> exact handlerOf_determined dinerSetup serving
  · intro e he'
    rw [he] at he'
    simp only [List.mem_cons, List.not_mem_nil, or_false] at he'
    rcases he' with rfl | rfl
    · exact determined_pure _ _ (fun r => Fields.new.error (fun _ => []) r.Env.Error []) (fun r => rfl)
    · exact determined_pure _ _ (fun r => ((Fields.new.error (fun _ => []) (some (.http Status.ErrMethodNotAllowed)) []).header Fold.ascii b!"Allow" [r.Env.AllowedMethods]).getD
        (Fields.new.error (fun _ => []) (some (.http Status.ErrMethodNotAllowed)) [])) (fun r => rfl)
  · rw [hd]
    intro d h
    simp only [List.mem_cons, List.not_mem_nil, or_false] at h
    rcases h with rfl | rfl <;> exact handlerOf_headBlind dinerSetup serving (fun _ _ _ => rfl)
  · intro e he'
    rw [he] at he'
    simp only [List.mem_cons, List.not_mem_nil, or_false] at he'
    rcases he' with rfl | rfl
    · exact headBlind_pure _ _ (fun r => Fields.new.error (fun _ => []) r.Env.Error []) (fun r => rfl) (fun _ _ => rfl)
    · exact headBlind_pure _ _ (fun r => ((Fields.new.error (fun _ => []) (some (.http Status.ErrMethodNotAllowed)) []).header Fold.ascii b!"Allow" [r.Env.AllowedMethods]).getD
        (Fields.new.error (fun _ => []) (some (.http Status.ErrMethodNotAllowed)) [])) (fun r => rfl) (fun _ _ => rfl)
  · rw [hd]
    intro d h
    simp only [List.mem_cons, List.not_mem_nil, or_false] at h
    rcases h with rfl | rfl <;> exact fun r w f r' _ h => serving_clean _ r w f r' h
  · intro e he'
    rw [he] at he'
    simp only [List.mem_cons, List.not_mem_nil, or_false] at he'
    rcases he' with rfl | rfl
    · intro r w f r' _ h
      cases h
      unfold Fields.error
      split <;> exact fields_clean new_clean rfl rfl rfl rfl
    · intro r w f r' hr h
      simp only [defaultMethodNotAllowedHandler, allowHeader_eq] at h
      cases h
      refine ⟨?_, new_clean.contentType, new_clean.transferEncoding, new_clean.cookies⟩
      intro x hx
      simp only [Fields.error, Fields.code, Fields.new, List.nil_append, Option.getD_some, List.mem_singleton] at hx
      subst hx
      exact ⟨by unfold NameOK NoBreak; dsimp only; decide, hr⟩
  · intro h r world hh _
    have : handlerFor dinerSetup.F (fun _ => []) waiter Status.ErrCloseConnection.Code = some (defaultAllErrorsHandler (fun _ => [])) := rfl
    rw [this] at hh
    cases hh
    rfl
  · intro s hs
    simp only [List.cons_append, List.nil_append, List.mem_cons, List.not_mem_nil, or_false] at hs
    rcases hs with rfl | rfl | rfl
    · exact ⟨posted_ok, by decide +kernel⟩
    · exact ⟨gotten_ok, by decide +kernel⟩
    · exact ⟨heading_ok, by decide +kernel⟩
  · intro r hr; cases hr

/-- C112 for two functions: a handler which answers with the path and the body, and one for errors which answers with the path. -/
example : ∃ cl₁ cl₂, DefaultsOK simple.F (Config.default.defaultHeaders.getD []) ∧
    (∀ (r : Request) body, r.Method = .GET → ((fun r => .whole (fun d _ => Fields.new.bytes (r.Path ++ d.getD [])) : Request → Asking) { r with Method := .HEAD }).given body =
      ((fun r => .whole (fun d _ => Fields.new.bytes (r.Path ++ d.getD [])) : Request → Asking) r).given body) ∧
    (∀ r body, ResponseClean (((fun r => .whole (fun d _ => Fields.new.bytes (r.Path ++ d.getD [])) : Request → Asking) r).given body)) ∧
    (∀ (seen : Request) (world : Act.World CS), world.hijacked = false →
      (((fun r => pure (Fields.new.bytes r.Path, r) : Router.Handler Act) { seen with Env := { seen.Env with Error := some closeError } }).run simple.P simple.maxAlloc world).1.isSome ∧
      (((fun r => pure (Fields.new.bytes r.Path, r) : Router.Handler Act) { seen with Env := { seen.Env with Error := some closeError } }).run simple.P simple.maxAlloc world).2.hijacked = false) ∧
    (∀ s ∈ [chunked] ++ [gotten, asHead gotten], SendableWith simple.F Config.default s ∧ s.head.last b!"upgrade" = none) ∧ Quiet cl₁ ∧ Quiet cl₂ ∧ cl₁.wscript = cl₂.wscript ∧
    Config.default.bodyMaxSize.toNat ≤ simple.maxAlloc ∧ simple.maxAlloc < 2 ^ 63 ∧
    cl₁.stream = ([chunked] ++ [gotten]).flatMap Sending.bytes ∧ cl₂.stream = ([chunked] ++ [asHead gotten]).flatMap Sending.bytes ∧
    (readAnswers [.POST, .GET]
      (serve simple (newConn simple.P Config.default 1 b!"1.2.3.4"
        ⟨handlerOf (fun r => .whole (fun d _ => Fields.new.bytes (r.Path ++ d.getD []))), fun r => pure (Fields.new.bytes r.Path, r)⟩ (followedBy cl₁ []))).1.client.written.flatten).map
      (List.map (fun a => (a.1.isSome, a.2.code, a.2.rest))) = some [(false, 200, b!"/b chello"), (false, 200, b!"/")] ∧
    (serve simple (newConn simple.P Config.default 1 b!"1.2.3.4"
        ⟨handlerOf (fun r => .whole (fun d _ => Fields.new.bytes (r.Path ++ d.getD []))), fun r => pure (Fields.new.bytes r.Path, r)⟩ (followedBy cl₁ []))).1.client.written.flatten =
      (serve simple (newConn simple.P Config.default 1 b!"1.2.3.4"
        ⟨handlerOf (fun r => .whole (fun d _ => Fields.new.bytes (r.Path ++ d.getD []))), fun r => pure (Fields.new.bytes r.Path, r)⟩ (followedBy cl₂ []))).1.client.written.flatten ++ b!"/" := by
  refine ⟨arrive [chunked.bytes ++ gotten.bytes.take 20, gotten.bytes.drop 20], arrive (chunked.bytes.map (fun c => [c]) ++ [(asHead gotten).bytes]), default_defaults,
    fun _ _ _ => rfl, fun _ _ => bytes_clean _,
    fun seen world h => ⟨rfl, h⟩, ?_, by unfold Quiet; decide +kernel, by unfold Quiet; decide +kernel, rfl, by decide, by decide, by decide +kernel, by decide +kernel, by decide +kernel, by decide +kernel⟩
  intro s hs
  simp only [List.cons_append, List.nil_append, List.mem_cons, List.not_mem_nil, or_false] at hs
  rcases hs with rfl | rfl | rfl
  · exact ⟨chunked_ok, by decide +kernel⟩
  · exact ⟨gotten_ok, by decide +kernel⟩
  · exact ⟨heading_ok, by decide +kernel⟩

end Indigo.Props
