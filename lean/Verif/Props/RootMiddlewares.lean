/-
C74: middlewares of the root are around everything. C45: HTTPSOnly at the root.
-/
import Verif.Proofs.RouterAll
import Verif.Props.Router
import Verif.Props.Middleware

namespace Indigo.Props
open Indigo.Router Indigo.Spec.Router Indigo.Spec.Virtual

section
variable {m : Type → Type} [Monad m] {F : Fold} {text : GoErr → Bytes} {env : Env m} {ops : List (Op m)} {rt : Runtime m}

omit [Monad m] in
private theorem around_root (ops : List (Op m)) (r : Nat) (hr : r < (places ops).length) :
    ∃ rest, around ops r = uses ops 0 ++ rest := by
  obtain ⟨-, ⟨l, hl⟩, -⟩ := (places_ok ops).line r _ (List.getElem?_eq_getElem hr)
  refine ⟨l.flatMap (uses ops), ?_⟩
  rw [around, List.getElem?_eq_getElem hr]
  simp [hl]

private theorem known_wrapped (hb : Built F text ops rt) {h : Handler m} (hk : Known F text ops h) :
    ∃ h0, h = wrap (uses ops 0) h0 := by
  rcases hk with ⟨k, hk⟩ | ⟨p, hk⟩ | ⟨c, hk⟩
  · rw [declared, List.mem_flatMap] at hk
    obtain ⟨op, hop, hk⟩ := hk
    cases op with
    | route r meth path h' mws =>
      simp only [List.mem_singleton, Prod.mk.injEq] at hk
      obtain ⟨rest, hr⟩ := around_root ops r (hb.refs _ hop)
      refine ⟨wrap (rest ++ mws) h', ?_⟩
      rw [hk.2, hr, List.append_assoc, wrap_append]
    | _ => simp at hk
  · rw [catchers, List.mem_flatMap] at hk
    obtain ⟨op, hop, hk⟩ := hk
    cases op with
    | «catch» r pre h' mws =>
      simp only [List.mem_singleton, Prod.mk.injEq] at hk
      obtain ⟨rest, hr⟩ := around_root ops r (hb.refs _ hop)
      refine ⟨wrap (rest ++ mws) h', ?_⟩
      rw [hk.2, hr, List.append_assoc, wrap_append]
    | _ => simp at hk
  · rw [errorHandlers, List.mem_map] at hk
    obtain ⟨e, -, he⟩ := hk
    simp only [Prod.mk.injEq] at he
    exact ⟨e.2, he.2.symm⟩

theorem history_buff (hm : make F text env ops = some rt) (panicked : m (Fields × Request)) (history : List Event) :
    ∃ b, after (Router.impl F panicked) rt history = { rt with traceBuff := b } := by
  have hb := built F text env ops rt hm
  have key : ∀ (history : List Event) (b : Bytes), ∃ b',
      after (Router.impl F panicked) { rt with traceBuff := b } history = { rt with traceBuff := b' } := by
    intro history
    induction history with
    | nil => intro b; exact ⟨b, rfl⟩
    | cons e es ih =>
      intro b
      have hone : ∃ b', next (Router.impl F panicked) { rt with traceBuff := b } e = { rt with traceBuff := b' } := by
        cases e with
        | request req =>
          rcases request_known hm (C41_always_one F text ops) b req with ⟨_, _, _, _, h⟩ | ⟨_, _, _, b', _, h⟩ | ⟨_, _, h⟩
          · exact ⟨b, by simp only [next, Router.impl, h]; rfl⟩
          · exact ⟨b', by simp only [next, Router.impl, h]; rfl⟩
          · exact ⟨b, by simp only [next, Router.impl, h]; rfl⟩
        | error req err =>
          rcases error_known hb (C41_always_one F text ops) b
            (Runtime.runMutators { rt with traceBuff := b } req) err with ⟨_, _, _, _, h⟩ | ⟨_, _, _, b', h⟩ | ⟨_, h⟩
          · exact ⟨b, by simp only [next, Router.impl, Runtime.onError, h]⟩
          · exact ⟨b', by simp only [next, Router.impl, Runtime.onError, h]⟩
          · exact ⟨b, by simp only [next, Router.impl, Runtime.onError, h]⟩
      obtain ⟨b', hb'⟩ := hone
      obtain ⟨b'', hb''⟩ := ih b'
      refine ⟨b'', ?_⟩
      have : after (Router.impl F panicked) { rt with traceBuff := b } (e :: es) =
          after (Router.impl F panicked) (next (Router.impl F panicked) { rt with traceBuff := b } e) es := rfl
      rw [this, hb', hb'']
  obtain ⟨b, h⟩ := key history rt.traceBuff
  exact ⟨b, h⟩

/-- **C74 (part).** For every way of building a router, with or without path parameters, after every history of
requests and errors and for every request: what is done is the call of some handler inside of all middlewares added to
the root - routes, catchers and error handlers alike - with the request as the mutators leave it, or (`TRACE`) the
echo of the request. (A panic of the router is possible only if a mutator empties the path.)
Missing: TRACE. -/
theorem C74_requests_partial (hm : make F text env ops = some rt) (panicked : m (Fields × Request))
    (history : List Event) (req : Request) :
    let I := Router.impl F panicked
    (∃ h req', Passed (arriving ops req) req' ∧
      (I.onRequest (after I rt history) req).1 = wrap (uses ops 0) h req') ∨
    ((arriving ops req).Method = .TRACE ∧ ∃ f req', Passed (arriving ops req) req' ∧
      (I.onRequest (after I rt history) req).1 = pure (f, req')) ∨
    ((arriving ops req).Path = [] ∧ (∃ d ∈ declared ops, isDyn d.1.1 = true) ∧
      (I.onRequest (after I rt history) req).1 = panicked) := by
  intro I
  obtain ⟨b, hh⟩ := history_buff hm panicked history
  rw [hh]
  rcases request_known hm (C41_always_one F text ops) b req with ⟨h, r, hk, hp, h1⟩ | ⟨ht, f, r, b', hp, h1⟩ | ⟨hp, hd, h1⟩
  · obtain ⟨h0, rfl⟩ := known_wrapped (built F text env ops rt hm) hk
    exact .inl ⟨h0, r, hp, by simp only [I, Router.impl, h1]; rfl⟩
  · exact .inr (.inl ⟨ht, f, r, hp, by simp only [I, Router.impl, h1]; rfl⟩)
  · exact .inr (.inr ⟨hp, hd, by simp only [I, Router.impl, h1]; rfl⟩)

/-- **C74 (part).** The same for errors reported by the server: malformed requests, closed connections and so on.
(Errors without a status code, which the server never reports, are answered with 500 by the router itself.) -/
theorem C74_errors (hm : make F text env ops = some rt) (panicked : m (Fields × Request))
    (history : List Event) (req : Request) (e : Status.HTTPError)
    (notTrace : (mutated ops req).Method = .TRACE → e ≠ Status.ErrMethodNotAllowed) :
    let I := Router.impl F panicked
    ∃ h req', Passed (mutated ops req) req' ∧
      (I.onError (after I rt history) req (.http e)).1 = wrap (uses ops 0) h req' := by
  intro I
  obtain ⟨b, hh⟩ := history_buff hm panicked history
  have hb := built F text env ops rt hm
  rw [hh]
  have hmut : Runtime.runMutators { rt with traceBuff := b } req = mutated ops req := by
    rw [mutated, Runtime.runMutators, hb.mutators]
  have hon : (I.onError { rt with traceBuff := b } req (.http e)).1 =
      (Runtime.onError' F { rt with traceBuff := b } (mutated ops req) (.http e)).1 := by
    simp only [I, Router.impl, Runtime.onError, hmut]
  rcases error_known hb (C41_always_one F text ops) b (mutated ops req) (.http e) with
    ⟨h, r, hk, hp, h1⟩ | ⟨h1, h2, -⟩ | ⟨h1, -⟩
  · obtain ⟨h0, rfl⟩ := known_wrapped hb hk
    exact ⟨h0, r, hp, by rw [hon, h1]⟩
  · exact absurd (by simpa using h2) (notTrace h1)
  · exact absurd rfl (h1 e)

/-- Every error: a handler inside of the middlewares of the root, or a response of the router itself. -/
theorem C74_any_error (hm : make F text env ops = some rt) (panicked : m (Fields × Request))
    (history : List Event) (req : Request) (err : GoErr) :
    let I := Router.impl F panicked
    (∃ h req', Passed (mutated ops req) req' ∧
      (I.onError (after I rt history) req err).1 = wrap (uses ops 0) h req') ∨
    ∃ f req', (I.onError (after I rt history) req err).1 = pure (f, req') := by
  intro I
  obtain ⟨b, hh⟩ := history_buff hm panicked history
  have hb := built F text env ops rt hm
  rw [hh]
  have hmut : Runtime.runMutators { rt with traceBuff := b } req = mutated ops req := by
    rw [mutated, Runtime.runMutators, hb.mutators]
  have hon : (I.onError { rt with traceBuff := b } req err).1 =
      (Runtime.onError' F { rt with traceBuff := b } (mutated ops req) err).1 := by
    simp only [I, Router.impl, Runtime.onError, hmut]
  rcases error_known hb (C41_always_one F text ops) b (mutated ops req) err with
    ⟨h, r, hk, hp, h1⟩ | ⟨-, -, f, b', h1⟩ | ⟨-, h1⟩
  · obtain ⟨h0, rfl⟩ := known_wrapped hb hk
    exact .inl ⟨h0, r, hp, by rw [hon, h1]⟩
  · exact .inr ⟨f, _, by rw [hon, h1]⟩
  · exact .inr ⟨_, _, by rw [hon, h1]⟩

end

section
variable {m : Type → Type} [Monad m] {F : Fold} {text : GoErr → Bytes} {env : Env m} {ops : List (Op m)} {rt : Runtime m}

/-- **C45 (part).** A router with `HTTPSOnly` as the first middleware of its root does nothing for a request without
encryption, to whatever path, but to answer it with a redirect or 400 - or, if the method is TRACE, with an echo. In
particular no handler is called, and no other middleware: the answer is not an action of theirs. -/
theorem C45_router_partial (hm : make F text env ops = some rt) (panicked : m (Fields × Request))
    (params : Middleware.HTTPOnlyParams) (rest : List (Router.Middleware m))
    (first : uses ops 0 = Middleware.httpsOnly F [params] :: rest)
    (history : List Event) (req : Request)
    (names : ∀ p ∈ (arriving ops req).Headers.pairs, ∀ c ∈ p.Key, HostChar c)
    (plain : (arriving ops req).Env.Encryption = 0) (hpath : (arriving ops req).Path ≠ []) :
    let I := Router.impl F panicked
    ∃ f req', (I.onRequest (after I rt history) req).1 = pure (f, req') ∧
      (f.Code = 400 ∨ f.Code = 301 ∨ (arriving ops req).Method = .TRACE) := by
  intro I
  rcases C74_requests_partial hm panicked history req with ⟨h, r, hp, h1⟩ | ⟨ht, f, r, -, h1⟩ | ⟨h1, -⟩
  · rw [first] at h1
    have hh : r.Headers = (arriving ops req).Headers := by rw [hp]
    have he : r.Env.Encryption = (arriving ops req).Env.Encryption := by rw [hp]
    obtain ⟨f, hf, -, hc⟩ := C45_plain_partial F params (wrap rest h) r (by rw [hh]; exact names) (he.trans plain)
    refine ⟨f, r, ?_, ?_⟩
    · rw [h1, ← hf]; rfl
    · split at hc
      · exact .inl hc.1
      · exact .inr (.inl hc.1)
  · exact ⟨f, r, h1, .inr (.inr ht)⟩
  · exact absurd h1 hpath

end

/-! A router with a middleware which refuses everything at its root. -/

private def refuse : Middleware Id := fun _ req => (Fields.new.code 401, req)
private def secret : Handler Id := fun req => (Fields.new.bytes b!"secret", req)
private def guarded : List (Op Id) := [.use 0 [refuse], .route 0 .GET b!"/a" secret []]

/-- The status code of the answer. -/
private def codeFor (ops : List (Op Id)) (method : Method) (path : Bytes) : Option Nat :=
  (make sampleFold (fun _ => []) sampleEnv ops).map (fun rt =>
    (Prod.fst (Id.run ((Router.impl sampleFold (m := Id) (Fields.new, {})).onRequest rt
      { Method := method, Path := path }).1)).Code)

/-- C74 is false: TRACE requests for a registered path are answered with an echo of the request without any
middleware being asked. (The router has a middleware at its root which refuses everything.) -/
theorem C74_trace_bypasses_violation :
    uses guarded 0 = [refuse] ∧
    (∀ h req, wrap (uses guarded 0) h req = (Fields.new.code 401, req)) ∧
    codeFor guarded .TRACE b!"/a" = some 200 := by
  refine ⟨rfl, fun h req => rfl, ?_⟩
  decide +kernel

example : codeFor guarded .GET b!"/a" = some 401 ∧ codeFor (.route 0 .GET b!"/b/{x}" secret [] :: guarded) .GET b!"/b/c" = some 401 ∧
    codeFor guarded .GET b!"/c" = some 401 ∧
    codeFor guarded .POST b!"/a" = some 401 := by
  decide +kernel

end Indigo.Props
