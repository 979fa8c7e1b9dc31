/-
Requests cut into pieces in different ways, for programs of the built-in router (`router/inbuilt`).
-/
import Verif.Props.EveryProgram
import Verif.Props.Same
import Verif.Proofs.RouterSame

namespace Indigo.Props
open Indigo.Serve Indigo.Spec Indigo.Router Indigo.Spec.Router
variable {σ : Type} {text : GoErr → Bytes} {env : Env Act} {ops : List (Op Act)} {rt : Runtime Act}

/-- The state of a program of the built-in router is a function of what has been sent. -/
theorem program_state {E : Setup σ (Runtime Act)} (router : E.router = Router.impl E.F .panic) {cfg : Config} (enc : EncToken) (remote : Bytes)
    (made : make E.F text env ops = some rt) (paths : ∀ r : Request, r.Path ≠ [] → (mutated ops r).Path ≠ [])
    (respect : ∀ r r', contents r = contents r' → contents (mutated ops r) = contents (mutated ops r')) (before : List Sending) :
    ∃ b, ∀ post history, HeardSo E (fun s => SendableWith E.F cfg s ∧ True) cfg.maxEncodingTokens.toNat enc remote post before history →
      routerAfter E rt history = { rt with traceBuff := b } := by
  have notEmpty : ∀ {s : Sending} {post env after seen world}, SendableWith E.F cfg s → Delivered E cfg.maxEncodingTokens.toNat remote post env s after seen world →
      (arriving ops seen).Path ≠ [] := by
    intro s post env after seen world hs del h
    have h1 := normalize_empty h
    refine paths seen ?_ h1
    rw [del.path]
    exact unescapes_ne hs.path hs.ok.target.1
  have alike := fun {s post env after seen world} (hs : SendableWith E.F cfg s) (del : Delivered E cfg.maxEncodingTokens.toNat remote post env s after seen world) =>
    request_same made (C41_always_one E.F text ops) respect seen (notEmpty hs del)
  obtain ⟨n, hn⟩ : ∃ n, before.length = n := ⟨_, rfl⟩
  induction n generalizing before with
  | zero =>
    refine ⟨rt.traceBuff, fun post history h => ?_⟩
    cases h with
    | none => rfl
    | next => simp at hn
  | succ n ih =>
    by_cases hex : ∃ post history, HeardSo E (fun s => SendableWith E.F cfg s ∧ True) cfg.maxEncodingTokens.toNat enc remote post before history
    · obtain ⟨post, history, h⟩ := hex
      cases h with
      | none => cases hn
      | @next before history s after seen world heard good del =>
        obtain ⟨b, hb⟩ := ih before (by simpa using hn)
        have key : ∃ c, ∀ seen', contents seen' = contents seen → (E.router.onRequest { rt with traceBuff := b } seen').2 = { rt with traceBuff := c } := by
          obtain ⟨D, ⟨h, -, hall⟩ | ⟨f, g, hall⟩⟩ := alike good.1 del
          · refine ⟨b, fun seen' hc => ?_⟩
            obtain ⟨r, h1, -⟩ := hall seen' b hc
            rw [router]
            simp only [Router.impl, h1]
            rfl
          · refine ⟨g b, fun seen' hc => ?_⟩
            obtain ⟨r, h1, -⟩ := hall seen' b hc
            rw [router]
            simp only [Router.impl, h1]
            rfl
        obtain ⟨c, hc⟩ := key
        refine ⟨c, fun post' history' h' => ?_⟩
        generalize hx : before ++ [s] = x at h'
        cases h' with
        | none => simp at hx
        | @next before' history' s' after' seen' world' heard' good' del' =>
          obtain ⟨rfl, hs⟩ := List.append_inj' hx rfl
          cases hs
          rw [show routerAfter E rt (history' ++ [seen']) = (E.router.onRequest (routerAfter E rt history') seen').2 by simp [routerAfter], hb post' history' heard']
          exact hc seen' (delivered_unique del' del)
    · exact ⟨[], fun post history h => absurd ⟨post, history, h⟩ hex⟩

/-- The answers of a program of the built-in router are functions of what is sent, if those of its handlers are. -/
theorem program_repeatable {E : Setup σ (Runtime Act)} (router : E.router = Router.impl E.F .panic) {cfg : Config}
    (alloc : cfg.bodyMaxSize.toNat ≤ E.maxAlloc) (large : E.maxAlloc < 2 ^ 63) (enc : EncToken) (remote : Bytes)
    (made : make E.F text env ops = some rt)
    (mutators : ∀ r, Untouched r (mutated ops r)) (paths : ∀ r : Request, r.Path ≠ [] → (mutated ops r).Path ≠ [])
    (respect : ∀ r r', contents r = contents r' → contents (mutated ops r) = contents (mutated ops r'))
    (polite : AllHandlers E.F text ops (Polite E)) (determined : AllHandlers E.F text ops (Determined E))
    (closing : ∀ h r (world : Act.World σ), handlerFor E.F text ops Status.ErrCloseConnection.Code = some h → world.hijacked = false →
      ((h (failing r closeError)).run E.P E.maxAlloc world).1.isSome) :
    ∃ reply, Repeatable E (fun s => SendableWith E.F cfg s ∧ True) cfg.maxEncodingTokens.toNat enc remote rt reply := by
  have arrives : ∀ r, Untouched r (arriving ops r) := fun r => (mutators r).normalised _
  have notEmpty : ∀ {s : Sending} {post env after seen world}, SendableWith E.F cfg s → Delivered E cfg.maxEncodingTokens.toNat remote post env s after seen world →
      (arriving ops seen).Path ≠ [] := by
    intro s post env after seen world hs del h
    have h1 := normalize_empty h
    refine paths seen ?_ h1
    rw [del.path]
    exact unescapes_ne hs.path hs.ok.target.1
  have alike := fun {s post env after seen world} (hs : SendableWith E.F cfg s) (del : Delivered E cfg.maxEncodingTokens.toNat remote post env s after seen world) =>
    request_same made (C41_always_one E.F text ops) respect seen (notEmpty hs del)
  have state := program_state (cfg := cfg) router enc remote made paths respect
  refine repeatable_of ?_ ?_ ?_
  · intro before history history' post post' s after after' seen seen' world world' heard heard' hg del del'
    obtain ⟨b, hb⟩ := state before
    unfold Answers
    rw [hb post history heard, hb post' history' heard', router]
    obtain ⟨D, ⟨h, hk, hall⟩ | ⟨f, g, hall⟩⟩ := alike hg.1 del
    · obtain ⟨r, h1, h2⟩ := hall seen b rfl
      obtain ⟨r', h3, h4⟩ := hall seen' b (delivered_unique del' del)
      simp only [Router.impl, h1, h3]
      exact program_good determined hk r r' _ _ _ (h2.trans h4.symm) (delivered_holds alloc large hg.1 del) (delivered_holds alloc large hg.1 del')
    · obtain ⟨r, h1, h2⟩ := hall seen b rfl
      obtain ⟨r', h3, h4⟩ := hall seen' b (delivered_unique del' del)
      simp only [Router.impl, h1, h3]
      exact ⟨_, _, _, _, _, rfl, rfl⟩
  · intro before history post s after seen world f req left _ hg del ha
    obtain ⟨b, hb⟩ := after_buff router made history
    rcases request_known made (C41_always_one E.F text ops) b seen with ⟨h, r, hk, hp, hr⟩ | ⟨-, f', r, b', hp, hr⟩ | ⟨he, -⟩
    · unfold Answers at ha
      rw [hb, router] at ha
      simp only [Router.impl, hr] at ha
      have hgood := program_good polite hk
      have hu := ((arrives seen).passed hp).trans (hgood.request r ⟨world.1, world.2, false⟩ f req (by exact congrArg Prod.fst ha))
      refine ⟨?_, hu.method, hu.connection, hu.upgrade⟩
      have := hgood.hijacked r ⟨world.1, world.2, false⟩
      rw [show (h r).run E.P E.maxAlloc ⟨world.1, world.2, false⟩ = _ from ha] at this
      exact this
    · unfold Answers at ha
      rw [hb, router] at ha
      simp only [Router.impl, hr] at ha
      cases ha
      have hu := (arrives seen).passed hp
      exact ⟨rfl, hu.method, hu.connection, hu.upgrade⟩
    · exact absurd he (notEmpty hg.1 del)
  · intro history seen world hw
    obtain ⟨h, hh, hr⟩ := error_chosen router made history seen Status.ErrCloseConnection (by decide) (by decide)
    rw [show closeError = .http Status.ErrCloseConnection from rfl, hr]
    exact ⟨closing h _ world hh hw, by rw [(program_good polite (handlerFor_known hh)).hijacked]; exact hw⟩

/-- **C110**, for any program of the built-in router. Its handlers answer with functions of what the request says and of the whole body (`Determined`), do not hijack the connection and leave some fields of the request alone;
what the mutators do depends on what the request says only, and they leave alone the same fields and do not make paths empty; the error handler which is called when the connection is being closed does not panic.
Two clients send the same well-formed requests, one after another, cut into pieces in different ways; writing to them has the same results. Then the server writes the same bytes to both, and serving ends in the same way. -/
theorem C110_program (E : Setup σ (Runtime Act)) (dec : DecodesChunked E.P) (router : E.router = Router.impl E.F .panic) (cfg : Config) (size : cfg.bodyMaxSize < 2 ^ 64)
    (alloc : cfg.bodyMaxSize.toNat ≤ E.maxAlloc) (large : E.maxAlloc < 2 ^ 63) (enc : EncToken) (remote : Bytes)
    (ops : List (Op Act)) (made : make E.F text env ops = some rt)
    (mutators : ∀ r, Untouched r (mutated ops r)) (paths : ∀ r : Request, r.Path ≠ [] → (mutated ops r).Path ≠ [])
    (respect : ∀ r r', contents r = contents r' → contents (mutated ops r) = contents (mutated ops r'))
    (polite : AllHandlers E.F text ops (Polite E)) (determined : AllHandlers E.F text ops (Determined E))
    (closing : ∀ h r (world : Act.World σ), handlerFor E.F text ops Status.ErrCloseConnection.Code = some h → world.hijacked = false →
      ((h (failing r closeError)).run E.P E.maxAlloc world).1.isSome)
    (ss : List Sending) (ok : ∀ s ∈ ss, SendableWith E.F cfg s)
    (cl₁ cl₂ : Client) (quiet₁ : Quiet cl₁) (quiet₂ : Quiet cl₂) (writes : cl₁.wscript = cl₂.wscript)
    (post₁ post₂ : List (Bytes × Option GoErr)) (silent₁ : Silent post₁) (silent₂ : Silent post₂)
    (stream₁ : cl₁.stream = ss.flatMap Sending.bytes) (stream₂ : cl₂.stream = ss.flatMap Sending.bytes) :
    ∃ frames why,
      (serve E (newConn E.P cfg enc remote rt (followedBy cl₁ post₁))).1.client.written = cl₁.written ++ frames ∧
      (serve E (newConn E.P cfg enc remote rt (followedBy cl₂ post₂))).1.client.written = cl₂.written ++ frames ∧
      (serve E (newConn E.P cfg enc remote rt (followedBy cl₁ post₁))).2 = some why ∧
      (serve E (newConn E.P cfg enc remote rt (followedBy cl₂ post₂))).2 = some why := by
  have tame : Tame E rt := program_tame router made mutators polite
  obtain ⟨reply, rep⟩ := program_repeatable router alloc large enc remote made mutators paths respect polite determined closing
  exact C110_same_answers E dec cfg size enc remote _ tame reply _ rep ss (fun s hs => ⟨ok s hs, trivial⟩) cl₁ cl₂ quiet₁ quiet₂ writes post₁ post₂ silent₁ silent₂ stream₁ stream₂

/-! ### The hypotheses are met -/

theorem polite_handlerOf {ρ : Type} (E : Setup σ ρ) (g : Request → Asking) : Polite E (handlerOf g) where
  request r w f r' h := by
    have : r' = r := by
      unfold handlerOf at h
      split at h
      · cases h; rfl
      · change (Act.run E.P E.maxAlloc (Act.bind (Act.body .bytes _) _) _).1 = _ at h
        simp only [Act.bind, Act.run] at h
        generalize (Body.call E.P E.maxAlloc (w.body, w.client) Body.Call.bytes).1 = a at h
        cases a <;> cases h
        rfl
    rw [this]
    exact ⟨rfl, rfl, rfl, rfl, rfl, id⟩
  hijacked r w := by
    unfold handlerOf
    split
    · rfl
    · change (Act.run E.P E.maxAlloc (Act.bind (Act.body .bytes _) _) _).2.hijacked = _
      simp only [Act.bind, Act.run]
      generalize (Body.call E.P E.maxAlloc (w.body, w.client) Body.Call.bytes).1 = a
      cases a <;> rfl

/-- A handler which answers at once, with a function of what the request says. -/
theorem determined_pure {ρ : Type} (E : Setup σ ρ) (h : Handler Act) (g : Request → Fields) (hh : ∀ r, h r = pure (g (contents r), r)) : Determined E h := by
  intro r r' w w' body hc _ _
  rw [hh, hh, hc]
  exact ⟨_, _, _, _, _, rfl, rfl⟩

/-- A program which answers with the body and a variable of the path. -/
def copier : List (Op Act) :=
  [.route 0 .POST b!"/menu/{name}" (handlerOf (fun r => .whole (fun d _ => Fields.new.bytes ((r.Params.pairs.head?.map Pair.Value).getD [] ++ d.getD [])))) [],
   .alias 0 b!"/a" b!"/menu/tea", .alias 0 b!"/b c" b!"/menu/soup"]

theorem copier_made : (make dinerSetup.F (fun _ => []) sampleEnv copier).isSome = true := by decide +kernel

theorem copier_ok :
    (∀ r, Untouched r (mutated copier r)) ∧ (∀ r : Request, r.Path ≠ [] → (mutated copier r).Path ≠ []) ∧
    (∀ r r', contents r = contents r' → contents (mutated copier r) = contents (mutated copier r')) ∧
    AllHandlers dinerSetup.F (fun _ => []) copier (Polite dinerSetup) ∧ AllHandlers dinerSetup.F (fun _ => []) copier (Determined dinerSetup) ∧
    (∀ h r (world : Act.World CS), handlerFor dinerSetup.F (fun _ => []) copier Status.ErrCloseConnection.Code = some h → world.hijacked = false →
      ((h (failing r closeError)).run dinerSetup.P dinerSetup.maxAlloc world).1.isSome) := by
  have hd : declared copier = [((b!"/menu/{name}", .POST), handlerOf (fun r => .whole (fun d _ => Fields.new.bytes ((r.Params.pairs.head?.map Pair.Value).getD [] ++ d.getD []))))] := rfl
  have he : errorHandlers (Spec.Router.defaults dinerSetup.F (fun _ => [])) copier = [(0, defaultAllErrorsHandler (fun _ => [])),
      (405, defaultMethodNotAllowedHandler Fold.ascii (fun _ => []))] := rfl
  have hm : ∀ r, mutated copier r = aliasMutator b!"/b c" b!"/menu/soup" (aliasMutator b!"/a" b!"/menu/tea" r) := fun _ => rfl
  refine ⟨?_, ?_, ?_, ⟨?_, (fun c (hc : c ∈ []) => (List.not_mem_nil hc).elim), ?_⟩, ⟨?_, (fun c (hc : c ∈ []) => (List.not_mem_nil hc).elim), ?_⟩, ?_⟩
  · intro r
    have key : ∀ (x y : Bytes) (r : Request), Untouched r (aliasMutator x y r) := by
      intro x y r
      unfold aliasMutator
      split <;> exact ⟨rfl, rfl, rfl, rfl, rfl, id⟩
    rw [hm]
    exact (key _ _ _).trans (key _ _ _)
  · intro r h
    have key : ∀ (x y : Bytes) (r : Request), y ≠ [] → r.Path ≠ [] → (aliasMutator x y r).Path ≠ [] := by
      intro x y r hy hr
      unfold aliasMutator
      split
      · exact hy
      · exact hr
    rw [hm]
    exact key _ _ _ (by decide) (key _ _ _ (by decide) h)
  · intro r r' h
    have key : ∀ (x y : Bytes) (r r' : Request), contents r = contents r' → contents (aliasMutator x y r) = contents (aliasMutator x y r') := by
      intro x y r r' h
      have hp : r.Path = r'.Path := (congrArg Request.Path h :)
      unfold aliasMutator
      rw [← hp]
      split
      · exact contents_env (contents_path h (fun _ => y)) (fun v => { v with AliasFrom := x })
      · exact h
    rw [hm, hm]
    exact key _ _ _ _ (key _ _ _ _ h)
  · intro d hd'
    rw [hd] at hd'
    simp only [List.mem_cons, List.not_mem_nil, or_false] at hd'
    rcases hd' with rfl
    dsimp only
    exact polite_handlerOf _ _
  · intro e he'
    rw [he] at he'
    simp only [List.mem_cons, List.not_mem_nil, or_false] at he'
    rcases he' with rfl | rfl <;> exact polite_pure _ _ (fun r => ⟨_, rfl⟩)
  · intro d hd'
    rw [hd] at hd'
    simp only [List.mem_cons, List.not_mem_nil, or_false] at hd'
    rcases hd' with rfl
    dsimp only
    exact handlerOf_determined _ _
  · intro e he'
    rw [he] at he'
    simp only [List.mem_cons, List.not_mem_nil, or_false] at he'
    rcases he' with rfl | rfl
    · exact determined_pure _ _ (fun r => Fields.new.error (fun _ => []) r.Env.Error []) (fun r => rfl)
    · exact determined_pure _ _ (fun r => ((Fields.new.error (fun _ => []) (some (.http Status.ErrMethodNotAllowed)) []).header Fold.ascii b!"Allow" [r.Env.AllowedMethods]).getD
        (Fields.new.error (fun _ => []) (some (.http Status.ErrMethodNotAllowed)) [])) (fun r => rfl)
  · intro h r world hh _
    have : handlerFor dinerSetup.F (fun _ => []) copier Status.ErrCloseConnection.Code = some (defaultAllErrorsHandler (fun _ => [])) := rfl
    rw [this] at hh
    cases hh
    rfl

set_option maxRecDepth 200000 in
/-- C110: such a program, and three requests, which come in one piece, and in four. -/
example : ∃ rt cl₁ cl₂, make dinerSetup.F (fun _ => []) sampleEnv copier = some rt ∧
    (∀ r, Untouched r (mutated copier r)) ∧ (∀ r : Request, r.Path ≠ [] → (mutated copier r).Path ≠ []) ∧
    (∀ r r', contents r = contents r' → contents (mutated copier r) = contents (mutated copier r')) ∧
    AllHandlers dinerSetup.F (fun _ => []) copier (Polite dinerSetup) ∧ AllHandlers dinerSetup.F (fun _ => []) copier (Determined dinerSetup) ∧
    (∀ h r (world : Act.World CS), handlerFor dinerSetup.F (fun _ => []) copier Status.ErrCloseConnection.Code = some h → world.hijacked = false →
      ((h (failing r closeError)).run dinerSetup.P dinerSetup.maxAlloc world).1.isSome) ∧
    (∀ s ∈ [posted, chunked, gotten], SendableWith dinerSetup.F Config.default s) ∧
    Quiet cl₁ ∧ Quiet cl₂ ∧ cl₁.wscript = cl₂.wscript ∧ Silent [] ∧
    cl₁.stream = [posted, chunked, gotten].flatMap Sending.bytes ∧ cl₂.stream = [posted, chunked, gotten].flatMap Sending.bytes ∧ cl₁ ≠ cl₂ ∧
    (readAnswers [.POST, .POST, .GET]
      (serve dinerSetup (newConn dinerSetup.P Config.default 1 b!"1.2.3.4" rt (followedBy cl₁ []))).1.client.written.flatten).map
      (List.map (fun a => (a.1.isSome, a.2.code, a.2.rest))) = some [(false, 200, b!"teahello"), (false, 200, b!"souphello"), (false, 405, [])] := by
  refine ⟨(make dinerSetup.F (fun _ => []) sampleEnv copier).get copier_made, arrive [posted.bytes ++ chunked.bytes ++ gotten.bytes],
    arrive [posted.bytes.take 3, posted.bytes.drop 3 ++ chunked.bytes.take 60, chunked.bytes.drop 60 ++ gotten.bytes.take 1, gotten.bytes.drop 1],
    by simp, copier_ok.1, copier_ok.2.1, copier_ok.2.2.1, copier_ok.2.2.2.1, copier_ok.2.2.2.2.1, copier_ok.2.2.2.2.2, ?_,
    by unfold Quiet; decide +kernel, by unfold Quiet; decide +kernel, rfl, ?_, by decide +kernel, by decide +kernel, ?_, by decide +kernel⟩
  · intro s hs
    simp only [List.mem_cons, List.not_mem_nil, or_false] at hs
    rcases hs with rfl | rfl | rfl
    · exact posted_ok
    · exact chunked_ok
    · exact gotten_ok
  · intro r hr; cases hr
  · intro h
    have := congrArg (fun c : Client => c.conn.length) h
    revert this
    decide

/-- C110 for two functions: a handler which answers with the path and the body, and one for errors which answers with the path. -/
example : ∃ cl₁ cl₂,
    (∀ (seen : Request) (world : Act.World CS), world.hijacked = false →
      (((fun r => pure (Fields.new.bytes r.Path, r) : Router.Handler Act) { seen with Env := { seen.Env with Error := some closeError } }).run simple.P simple.maxAlloc world).1.isSome ∧
      (((fun r => pure (Fields.new.bytes r.Path, r) : Router.Handler Act) { seen with Env := { seen.Env with Error := some closeError } }).run simple.P simple.maxAlloc world).2.hijacked = false) ∧
    (∀ s ∈ [chunked, posted], SendableWith simple.F Config.default s) ∧ Quiet cl₁ ∧ Quiet cl₂ ∧ cl₁.wscript = cl₂.wscript ∧
    Config.default.bodyMaxSize.toNat ≤ simple.maxAlloc ∧ simple.maxAlloc < 2 ^ 63 ∧
    cl₁.stream = [chunked, posted].flatMap Sending.bytes ∧ cl₂.stream = [chunked, posted].flatMap Sending.bytes ∧ cl₁ ≠ cl₂ ∧
    (readAnswers [.POST, .POST]
      (serve simple (newConn simple.P Config.default 1 b!"1.2.3.4"
        ⟨handlerOf (fun r => .whole (fun d _ => Fields.new.bytes (r.Path ++ d.getD []))), fun r => pure (Fields.new.bytes r.Path, r)⟩ (followedBy cl₁ []))).1.client.written.flatten).map
      (List.map (fun a => (a.1.isSome, a.2.code, a.2.rest))) = some [(false, 200, b!"/b chello"), (false, 200, b!"/ahello")] := by
  refine ⟨arrive [chunked.bytes ++ posted.bytes.take 40, posted.bytes.drop 40], arrive (chunked.bytes.map (fun c => [c]) ++ [posted.bytes]),
    fun seen world h => ⟨rfl, h⟩, ?_, by unfold Quiet; decide +kernel, by unfold Quiet; decide +kernel, rfl, by decide, by decide, by decide +kernel, by decide +kernel, ?_, by decide +kernel⟩
  · intro s hs
    simp only [List.mem_cons, List.not_mem_nil, or_false] at hs
    rcases hs with rfl | rfl
    · exact chunked_ok
    · exact posted_ok
  · intro h
    have := congrArg (fun c : Client => c.conn.length) h
    revert this
    decide +kernel

end Indigo.Props
