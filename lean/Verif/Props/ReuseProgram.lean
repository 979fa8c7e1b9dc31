/-
Connections used for many requests, for programs of the built-in router (`router/inbuilt`); and where they make a difference.
-/
import Verif.Props.SameProgram
import Verif.Props.Reuse

namespace Indigo.Props
open Indigo.Serve Indigo.Spec Indigo.Router Indigo.Spec.Router
variable {σ : Type} {text : GoErr → Bytes} {env : Env Act} {ops : List (Op Act)} {rt : Runtime Act}

/-- **C111 (part)**, for any program of the built-in router, on connections which are not encrypted. Its handlers answer with functions of what the request says and of the whole body (`Determined`), set none of the default headers, do not hijack the connection and
leave some fields of the request alone; what the mutators do depends on what the request says only, and they leave alone the same fields and do not make paths empty; the error handler which is called when the connection is being closed does not panic.
A client sends well-formed requests on one connection, none of them TRACE or with the header Upgrade, and other ones send each of them on a connection of its own. Then the server writes to the first one what it writes to the other ones, one after another, until
one of the requests after which it closes the connection. -/
theorem C111_program_partial (E : Setup σ (Runtime Act)) (dec : DecodesChunked E.P) (router : E.router = Router.impl E.F .panic) (cfg : Config) (size : cfg.bodyMaxSize < 2 ^ 64)
    (alloc : cfg.bodyMaxSize.toNat ≤ E.maxAlloc) (large : E.maxAlloc < 2 ^ 63) (remote : Bytes)
    (ops : List (Op Act)) (made : make E.F text env ops = some rt)
    (mutators : ∀ r, Untouched r (mutated ops r)) (paths : ∀ r : Request, r.Path ≠ [] → (mutated ops r).Path ≠ [])
    (respect : ∀ r r', contents r = contents r' → contents (mutated ops r) = contents (mutated ops r'))
    (polite : AllHandlers E.F text ops (Polite E)) (determined : AllHandlers E.F text ops (Determined E))
    (apart : AllHandlers E.F text ops (fun h => ∀ r w f r', ((h r).run E.P E.maxAlloc w).1 = some (f, r') → ∀ x ∈ f.Headers, ∀ d ∈ cfg.defaultHeaders.getD [], E.F.eq d.1 x.Key = false))
    (closing : ∀ h r (world : Act.World σ), handlerFor E.F text ops Status.ErrCloseConnection.Code = some h → world.hijacked = false →
      ((h (failing r closeError)).run E.P E.maxAlloc world).1.isSome)
    (ss : List Sending) (ok : ∀ s ∈ ss, SendableWith E.F cfg s) (untraced : ∀ s ∈ ss, s.head.method ≠ .TRACE) (plain : ∀ s ∈ ss, s.head.last b!"upgrade" = none)
    (cl : Client) (quiet : Quiet cl) (writes : cl.wscript = []) (post : List (Bytes × Option GoErr)) (silent : Silent post) (stream : cl.stream = ss.flatMap Sending.bytes)
    (own : Sending → Client) (posts : Sending → List (Bytes × Option GoErr))
    (owns : ∀ s ∈ ss, Quiet (own s) ∧ (own s).wscript = [] ∧ (own s).written = [] ∧ Silent (posts s) ∧ (own s).stream = s.bytes) :
    ∃ frames why, (frames, why) = inTurn (fun s => ((serve E (newConn E.P cfg Middleware.Plain remote rt (followedBy (own s) (posts s)))).1.client.written,
        (serve E (newConn E.P cfg Middleware.Plain remote rt (followedBy (own s) (posts s)))).2)) ss ∧
      (serve E (newConn E.P cfg Middleware.Plain remote rt (followedBy cl post))).1.client.written = cl.written ++ frames ∧
      (serve E (newConn E.P cfg Middleware.Plain remote rt (followedBy cl post))).2 = why := by
  have tame : Tame E rt := program_tame router made mutators polite
  have arrives : ∀ r, Untouched r (arriving ops r) := fun r => (mutators r).normalised _
  let good : Sending → Prop := fun s => SendableWith E.F cfg s ∧ SendableWith E.F cfg s ∧ s.head.method ≠ .TRACE
  have known : ∀ {s post env after seen world}, good s → Delivered E cfg.maxEncodingTokens.toNat remote post env s after seen world →
      ∃ h req', Known E.F text ops h ∧ Passed (arriving ops seen) req' ∧ Runtime.onRequest E.F rt seen = some (h req', rt) := by
    intro s post env after seen world hs del
    rcases request_known made (C41_always_one E.F text ops) rt.traceBuff seen with h | ⟨h, -⟩ | ⟨h, -⟩
    · exact h
    · rw [(arrives seen).method, del.carries.method] at h
      exact absurd h hs.2.2
    · have h1 := normalize_empty h
      refine absurd h1 (paths seen ?_)
      rw [del.path]
      exact unescapes_ne hs.1.path hs.1.ok.target.1
  have notEmpty : ∀ {s : Sending} {post env after seen world}, SendableWith E.F cfg s → Delivered E cfg.maxEncodingTokens.toNat remote post env s after seen world →
      (arriving ops seen).Path ≠ [] := by
    intro s post env after seen world hs del h
    have h1 := normalize_empty h
    refine paths seen ?_ h1
    rw [del.path]
    exact unescapes_ne hs.path hs.ok.target.1
  have state : ∀ {post before history}, HeardSo E good cfg.maxEncodingTokens.toNat Middleware.Plain remote post before history → routerAfter E rt history = rt := by
    intro post before history h
    induction h with
    | none => rfl
    | @next before history s after seen world heard hg del ih =>
      obtain ⟨h, r, -, -, hr⟩ := known hg del
      rw [show routerAfter E rt (history ++ [seen]) = (E.router.onRequest (routerAfter E rt history) seen).2 by simp [routerAfter], ih, router]
      simp only [Router.impl, hr]
      rfl
  have plainly : ∀ b, environment Middleware.Plain b = {} := fun b => by unfold environment; split <;> rfl
  obtain ⟨reply, rep, hQ⟩ : ∃ reply, Repeatable E good cfg.maxEncodingTokens.toNat Middleware.Plain remote rt (fun _ => reply) ∧
      ∀ s, good s → ∀ h ∈ (reply s).Headers, ∀ d ∈ cfg.defaultHeaders.getD [], E.F.eq d.1 h.Key = false := by
    refine repeatable_own (fun f => ∀ h ∈ f.Headers, ∀ d ∈ cfg.defaultHeaders.getD [], E.F.eq d.1 h.Key = false) (by intro h hh; cases hh) ?_ ?_ ?_
    · intro before before' history history' post post' s after after' seen seen' world world' heard heard' hg del del'
      rw [plainly] at del del'
      unfold Answers
      rw [state heard, state heard', router]
      obtain ⟨D, ⟨h, hk, hall⟩ | ⟨f, g, hall⟩⟩ := request_same made (C41_always_one E.F text ops) respect seen (notEmpty hg.1 del)
      · obtain ⟨r, h1, h2⟩ := hall seen rt.traceBuff rfl
        obtain ⟨r', h3, h4⟩ := hall seen' rt.traceBuff (delivered_unique del' del)
        simp only [Router.impl, h1, h3]
        exact program_good determined hk r r' _ _ _ (h2.trans h4.symm) (delivered_holds alloc large hg.1 del) (delivered_holds alloc large hg.1 del')
      · obtain ⟨r, h1, h2⟩ := hall seen rt.traceBuff rfl
        obtain ⟨r', h3, h4⟩ := hall seen' rt.traceBuff (delivered_unique del' del)
        simp only [Router.impl, h1, h3]
        exact ⟨_, _, _, _, _, rfl, rfl⟩
    · intro before history post s after seen world f req left heard hg del ha
      obtain ⟨h, r, hk, hp, hr⟩ := known hg del
      unfold Answers at ha
      rw [state heard, router] at ha
      simp only [Router.impl, hr] at ha
      have hgood := program_good polite hk
      have ha1 : ((h r).run E.P E.maxAlloc ⟨world.1, world.2, false⟩).1 = some (f, req) := congrArg Prod.fst ha
      have hu := ((arrives seen).passed hp).trans (hgood.request r ⟨world.1, world.2, false⟩ f req ha1)
      refine ⟨program_good apart hk r _ f req ha1, ?_, hu.method, hu.connection, hu.upgrade⟩
      have := hgood.hijacked r ⟨world.1, world.2, false⟩
      rw [show (h r).run E.P E.maxAlloc ⟨world.1, world.2, false⟩ = _ from ha] at this
      exact this
    · intro history seen world hw
      obtain ⟨h, hh, hr⟩ := error_chosen router made history seen Status.ErrCloseConnection (by decide) (by decide)
      rw [show closeError = .http Status.ErrCloseConnection from rfl, hr]
      exact ⟨closing h _ world hh hw, by rw [(program_good polite (handlerFor_known hh)).hijacked]; exact hw⟩
  exact C111_reuse_partial E dec cfg size Middleware.Plain remote _ tame reply (fun s => SendableWith E.F cfg s ∧ s.head.method ≠ .TRACE) rep (fun s hs => hQ s ⟨hs.1, hs⟩) ss
    (fun s hs => ⟨ok s hs, ok s hs, untraced s hs⟩) plain cl quiet writes post silent stream own posts owns

/-! ### The hypotheses are met -/

set_option maxRecDepth 200000 in
/-- C111: the program `copier`, and three requests on one connection and on three. -/
example : ∃ rt cl, ∃ own : Sending → Client, make dinerSetup.F (fun _ => []) sampleEnv copier = some rt ∧
    (∀ r, Untouched r (mutated copier r)) ∧ (∀ r : Request, r.Path ≠ [] → (mutated copier r).Path ≠ []) ∧
    (∀ r r', contents r = contents r' → contents (mutated copier r) = contents (mutated copier r')) ∧
    AllHandlers dinerSetup.F (fun _ => []) copier (Polite dinerSetup) ∧ AllHandlers dinerSetup.F (fun _ => []) copier (Determined dinerSetup) ∧
    AllHandlers dinerSetup.F (fun _ => []) copier (fun h => ∀ r w f r', ((h r).run dinerSetup.P dinerSetup.maxAlloc w).1 = some (f, r') →
      ∀ x ∈ f.Headers, ∀ d ∈ Config.default.defaultHeaders.getD [], dinerSetup.F.eq d.1 x.Key = false) ∧
    (∀ h r (world : Act.World CS), handlerFor dinerSetup.F (fun _ => []) copier Status.ErrCloseConnection.Code = some h → world.hijacked = false →
      ((h (failing r closeError)).run dinerSetup.P dinerSetup.maxAlloc world).1.isSome) ∧
    (∀ s ∈ [posted, chunked, gotten], SendableWith dinerSetup.F Config.default s ∧ s.head.method ≠ .TRACE ∧ s.head.last b!"upgrade" = none) ∧
    Quiet cl ∧ cl.wscript = [] ∧ Silent [] ∧ cl.stream = [posted, chunked, gotten].flatMap Sending.bytes ∧
    (∀ s ∈ [posted, chunked, gotten], Quiet (own s) ∧ (own s).wscript = [] ∧ (own s).written = [] ∧ Silent [] ∧ (own s).stream = s.bytes) ∧
    (readAnswers [.POST, .POST, .GET]
      (serve dinerSetup (newConn dinerSetup.P Config.default Middleware.Plain b!"1.2.3.4" rt (followedBy cl []))).1.client.written.flatten).map
      (List.map (fun a => (a.1.isSome, a.2.code, a.2.rest))) = some [(false, 200, b!"teahello"), (false, 200, b!"souphello"), (false, 405, [])] := by
  have hd : declared copier = [((b!"/menu/{name}", .POST), handlerOf (fun r => .whole (fun d _ => Fields.new.bytes ((r.Params.pairs.head?.map Pair.Value).getD [] ++ d.getD []))))] := rfl
  have he : errorHandlers (Spec.Router.defaults dinerSetup.F (fun _ => [])) copier = [(0, defaultAllErrorsHandler (fun _ => [])),
      (405, defaultMethodNotAllowedHandler Fold.ascii (fun _ => []))] := rfl
  have hm : ∀ r, mutated copier r = aliasMutator b!"/b c" b!"/menu/soup" (aliasMutator b!"/a" b!"/menu/tea" r) := fun _ => rfl
  refine ⟨(make dinerSetup.F (fun _ => []) sampleEnv copier).get copier_made, arrive [posted.bytes.take 30, posted.bytes.drop 30 ++ chunked.bytes ++ gotten.bytes],
    fun s => arrive [s.bytes], by simp, ?_, ?_, ?_, ⟨?_, (fun c (hc : c ∈ []) => (List.not_mem_nil hc).elim), ?_⟩, ⟨?_, (fun c (hc : c ∈ []) => (List.not_mem_nil hc).elim), ?_⟩,
    ⟨?_, (fun c (hc : c ∈ []) => (List.not_mem_nil hc).elim), ?_⟩, ?_, ?_, by unfold Quiet; decide +kernel, rfl, ?_, by decide +kernel, ?_, by decide +kernel⟩
  · intro r
    have key : ∀ (x y : Bytes) (r : Request), Untouched r (aliasMutator x y r) := by
      intro x y r
      unfold aliasMutator
      split <;> exact ⟨rfl, rfl, rfl, rfl, rfl, id⟩
    rw [hm]
    exact (key _ _ _).trans (key _ _ _)
  · intro r h
    have key : ∀ (x y : Bytes) (r : Request), y ≠ [] → r.Path ≠ [] → (aliasMutator x y r).Path ≠ [] := by
      intro x y r hy hr
      unfold aliasMutator
      split
      · exact hy
      · exact hr
    rw [hm]
    exact key _ _ _ (by decide) (key _ _ _ (by decide) h)
  · intro r r' h
    have key : ∀ (x y : Bytes) (r r' : Request), contents r = contents r' → contents (aliasMutator x y r) = contents (aliasMutator x y r') := by
      intro x y r r' h
      have hp : r.Path = r'.Path := (congrArg Request.Path h :)
      unfold aliasMutator
      rw [← hp]
      split
      · exact contents_env (contents_path h (fun _ => y)) (fun v => { v with AliasFrom := x })
      · exact h
    rw [hm, hm]
    exact key _ _ _ _ (key _ _ _ _ h)
  · intro d hd'
    rw [hd] at hd'
    simp only [List.mem_cons, List.not_mem_nil, or_false] at hd'
    rcases hd' with rfl
    dsimp only
    exact polite_handlerOf _ _
  · intro e he'
    rw [he] at he'
    simp only [List.mem_cons, List.not_mem_nil, or_false] at he'
    rcases he' with rfl | rfl <;> exact polite_pure _ _ (fun r => ⟨_, rfl⟩)
  · intro d hd'
    rw [hd] at hd'
    simp only [List.mem_cons, List.not_mem_nil, or_false] at hd'
    rcases hd' with rfl
    dsimp only
    exact handlerOf_determined _ _
  · intro e he'
    rw [he] at he'
    simp only [List.mem_cons, List.not_mem_nil, or_false] at he'
    rcases he' with rfl | rfl
    · exact determined_pure _ _ (fun r => Fields.new.error (fun _ => []) r.Env.Error []) (fun r => rfl)
    · exact determined_pure _ _ (fun r => ((Fields.new.error (fun _ => []) (some (.http Status.ErrMethodNotAllowed)) []).header Fold.ascii b!"Allow" [r.Env.AllowedMethods]).getD
        (Fields.new.error (fun _ => []) (some (.http Status.ErrMethodNotAllowed)) [])) (fun r => rfl)
  · intro d hd' r w f r' hr x hx
    rw [hd] at hd'
    simp only [List.mem_cons, List.not_mem_nil, or_false] at hd'
    rcases hd' with rfl
    dsimp only at hr
    change (Act.run _ _ (Act.bind (Act.body .bytes _) _) _).1 = _ at hr
    simp only [Act.bind, Act.run] at hr
    generalize (Body.call dinerSetup.P dinerSetup.maxAlloc (w.body, w.client) Body.Call.bytes).1 = a at hr
    cases a <;> cases hr
    cases hx
  · intro e he' r w f r' hr x hx
    rw [he] at he'
    simp only [List.mem_cons, List.not_mem_nil, or_false] at he'
    rcases he' with rfl | rfl
    · cases hr
      revert x
      rcases r.Env.Error with _ | e
      · intro x hx; cases hx
      · cases e <;> intro x hx <;> cases hx
    · cases hr
      have : x.Key = b!"Allow" := by
        change x ∈ [⟨b!"Allow", r.Env.AllowedMethods⟩] at hx
        rw [List.mem_singleton.1 hx]
      rw [this]
      decide +kernel
  · intro h r world hh _
    have : handlerFor dinerSetup.F (fun _ => []) copier Status.ErrCloseConnection.Code = some (defaultAllErrorsHandler (fun _ => [])) := rfl
    rw [this] at hh
    cases hh
    rfl
  · intro s hs
    simp only [List.mem_cons, List.not_mem_nil, or_false] at hs
    rcases hs with rfl | rfl | rfl
    · exact ⟨posted_ok, by decide +kernel, by decide +kernel⟩
    · exact ⟨chunked_ok, by decide +kernel, by decide +kernel⟩
    · exact ⟨gotten_ok, by decide +kernel, by decide +kernel⟩
  · intro r hr; cases hr
  · intro s hs
    simp only [List.mem_cons, List.not_mem_nil, or_false] at hs
    rcases hs with rfl | rfl | rfl <;> exact ⟨by unfold Quiet; decide +kernel, rfl, rfl, (by intro r hr; cases hr), by decide +kernel⟩

set_option maxRecDepth 200000 in
/-- C111 for two functions, on an encrypted connection: a handler which answers with the path and the body, and two requests on one connection and on two. What is written is the same. -/
example : ∃ cl, ∃ own : Sending → Client,
    (∀ (seen : Request) (world : Act.World CS), world.hijacked = false →
      (((fun r => pure (Fields.new.bytes r.Path, r) : Router.Handler Act) { seen with Env := { seen.Env with Error := some closeError } }).run simple.P simple.maxAlloc world).1.isSome ∧
      (((fun r => pure (Fields.new.bytes r.Path, r) : Router.Handler Act) { seen with Env := { seen.Env with Error := some closeError } }).run simple.P simple.maxAlloc world).2.hijacked = false) ∧
    (∀ r e, (fun r : Request => Asking.whole (fun d _ => Fields.new.bytes (r.Path ++ d.getD []))) { r with Env := { r.Env with Encryption := e } } = (fun r : Request => Asking.whole (fun d _ => Fields.new.bytes (r.Path ++ d.getD []))) r) ∧
    (∀ (r : Request) (body : Bytes), ∀ h ∈ (((fun r : Request => Asking.whole (fun d _ => Fields.new.bytes (r.Path ++ d.getD []))) r).given body).Headers, ∀ d ∈ Config.default.defaultHeaders.getD [], simple.F.eq d.1 h.Key = false) ∧
    (∀ s ∈ [chunked, posted], SendableWith simple.F Config.default s ∧ s.head.last b!"upgrade" = none) ∧ Quiet cl ∧ cl.wscript = [] ∧
    cl.stream = [chunked, posted].flatMap Sending.bytes ∧ (∀ s ∈ [chunked, posted], Quiet (own s) ∧ (own s).wscript = [] ∧ (own s).written = [] ∧ (own s).stream = s.bytes) ∧
    inTurn (fun s => ((serve simple (newConn simple.P Config.default 1 b!"1.2.3.4"
        ⟨handlerOf (fun r => .whole (fun d _ => Fields.new.bytes (r.Path ++ d.getD []))), fun r => pure (Fields.new.bytes r.Path, r)⟩ (followedBy (own s) []))).1.client.written,
      (serve simple (newConn simple.P Config.default 1 b!"1.2.3.4"
        ⟨handlerOf (fun r => .whole (fun d _ => Fields.new.bytes (r.Path ++ d.getD []))), fun r => pure (Fields.new.bytes r.Path, r)⟩ (followedBy (own s) []))).2)) [chunked, posted] =
      ([b!"HTTP/1.1 200 OK\r\nAccept-Encodings: identity\r\nContent-Type: text/html\r\nContent-Length: 9\r\n\r\n/b chello",
        b!"HTTP/1.1 200 OK\r\nAccept-Encodings: identity\r\nContent-Type: text/html\r\nContent-Length: 7\r\n\r\n/ahello"], some .readFailed) := by
  refine ⟨arrive [chunked.bytes ++ posted.bytes.take 40, posted.bytes.drop 40], fun s => arrive [s.bytes],
    fun seen world h => ⟨rfl, h⟩, fun r e => rfl, fun r body h hh => (by cases hh), ?_, by unfold Quiet; decide +kernel, rfl, by decide +kernel, ?_, by decide +kernel⟩
  · intro s hs
    simp only [List.mem_cons, List.not_mem_nil, or_false] at hs
    rcases hs with rfl | rfl
    · exact ⟨chunked_ok, by decide +kernel⟩
    · exact ⟨posted_ok, by decide +kernel⟩
  · intro s hs
    simp only [List.mem_cons, List.not_mem_nil, or_false] at hs
    rcases hs with rfl | rfl <;> exact ⟨by unfold Quiet; decide +kernel, rfl, rfl, by decide +kernel⟩

/-! ### Where it makes a difference -/

/-- An application which says in its answer to `/a` which encodings it accepts; this is a default header. -/
def chooser : Simple.Router Act :=
  ⟨handlerOf (fun r => .answer (if r.Path = b!"/a" then ((Fields.new.header Fold.ascii b!"Accept-Encodings" [b!"gzip"]).getD Fields.new).bytes b!"own" else Fields.new.bytes b!"default")),
   fun r => pure (Fields.new.bytes r.Path, r)⟩

set_option maxRecDepth 200000 in
/-- **C111** is false in general: after a response which sets a default header, no response on this connection has it, although on a connection of its own the same request is answered with it. -/
theorem C111_defaults_violation : ∃ (first second : Sending) (cl own₁ own₂ : Client),
    (∀ s ∈ [first, second], SendableWith simple.F Config.default s ∧ s.head.last b!"upgrade" = none) ∧ Quiet cl ∧ Quiet own₁ ∧ Quiet own₂ ∧
    cl.wscript = [] ∧ own₁.wscript = [] ∧ own₂.wscript = [] ∧ cl.stream = first.bytes ++ second.bytes ∧ own₁.stream = first.bytes ∧ own₂.stream = second.bytes ∧
    (serve simple (newConn simple.P Config.default Middleware.Plain b!"1.2.3.4" chooser own₁)).2 = some .readFailed ∧
    (serve simple (newConn simple.P Config.default Middleware.Plain b!"1.2.3.4" chooser own₁)).1.client.written.flatten =
      b!"HTTP/1.1 200 OK\r\nAccept-Encodings: gzip\r\nContent-Type: text/html\r\nContent-Length: 3\r\n\r\nown" ∧
    (serve simple (newConn simple.P Config.default Middleware.Plain b!"1.2.3.4" chooser own₂)).1.client.written.flatten =
      b!"HTTP/1.1 200 OK\r\nAccept-Encodings: identity\r\nContent-Type: text/html\r\nContent-Length: 7\r\n\r\ndefault" ∧
    (serve simple (newConn simple.P Config.default Middleware.Plain b!"1.2.3.4" chooser cl)).1.client.written.flatten =
      b!"HTTP/1.1 200 OK\r\nAccept-Encodings: gzip\r\nContent-Type: text/html\r\nContent-Length: 3\r\n\r\nown" ++
      b!"HTTP/1.1 200 OK\r\nContent-Type: text/html\r\nContent-Length: 7\r\n\r\ndefault" := by
  refine ⟨posted, chunked, arrive [posted.bytes, chunked.bytes], arrive [posted.bytes], arrive [chunked.bytes], ?_, by unfold Quiet; decide +kernel, by unfold Quiet; decide +kernel,
    by unfold Quiet; decide +kernel, rfl, rfl, rfl, by decide +kernel, by decide +kernel, by decide +kernel, by decide +kernel, by decide +kernel, by decide +kernel, by decide +kernel⟩
  intro s hs
  simp only [List.mem_cons, List.not_mem_nil, or_false] at hs
  rcases hs with rfl | rfl
  · exact ⟨posted_ok, by decide +kernel⟩
  · exact ⟨chunked_ok, by decide +kernel⟩

end Indigo.Props
