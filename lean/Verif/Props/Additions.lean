/-
C118: what additions are about.
-/
import Verif.Props.NewRoute
import Verif.Spec.Additions

namespace Indigo.Props
open Indigo.Router Indigo.Spec Indigo.Spec.Router Indigo.Spec.Radix

section
variable {m : Type → Type} {ops ops' : List (Op m)}
variable [Monad m] {F : Fold} {text : GoErr → Bytes} {env env' : Env m} {rt rt' : Runtime m}

/-- Two programs with the same routes and mutators, and a request for which nothing else differs. -/
private theorem other_alike (made : make F text env ops = some rt) (made' : make F text env' ops' = some rt') (keys : ∀ x, x ∈ (declared ops).map (·.1) ↔ x ∈ (declared ops').map (·.1))
    (arr : ∀ req, arriving ops' req = arriving ops req) (ties : NoTies ops) :
    ∃ L, Looks ops L ∧ ∀ reqs reqs' now now', serving F rt reqs = some now → serving F rt' reqs' = some now' → ∀ req, (mutated ops req).Method ≠ .TRACE →
      (∀ route values meth k, L.found (arriving ops req) route values → (meth = (arriving ops req).Method ∨ ((arriving ops req).Method = .HEAD ∧ .HEAD ∉ methodsOf ops route ∧ meth = .GET)) →
        ((route, meth), k) ∈ declared ops' → ((route, meth), k) ∈ declared ops) →
      ((∃ route values, L.found (arriving ops req) route values ∧ (arriving ops req).Method ∉ methodsOf ops route ∧ ((arriving ops req).Method = .HEAD → .GET ∉ methodsOf ops route)) →
        handlerFor F text ops' Status.MethodNotAllowed = handlerFor F text ops Status.MethodNotAllowed) →
      ((∀ route values, ¬ L.found (arriving ops req) route values) → (∀ c : Bytes × Handler m, c.1 <+: (arriving ops req).Path → (c ∈ catchers ops' ↔ c ∈ catchers ops)) ∧
        ((∀ c ∈ catchers ops, ¬ c.1 <+: (arriving ops req).Path) → handlerFor F text ops' Status.NotFound = handlerFor F text ops Status.NotFound)) →
      (now.onRequest F req = none ∧ now'.onRequest F req = none) ∨
      ∃ (k : Handler m) (r r' : Request), now.onRequest F req = some (k r, now) ∧ now'.onRequest F req = some (k r', now') ∧ (AlikeFound r r' ∨ AlikeLost r r') := by
  obtain ⟨L, hL, hdo⟩ := C104_every_router made
  obtain ⟨L', hL', hdo'⟩ := C104_every_router made'
  obtain ⟨hf, hl⟩ := found_keys keys ties hL hL'
  refine ⟨L, hL, ?_⟩
  intro reqs reqs' now now' served served' req notTrace hroute h405 hlost
  obtain ⟨b, rfl⟩ := served_state made reqs now served
  obtain ⟨b', rfl⟩ := served_state made' reqs' now' served'
  have notTrace' : (arriving ops req).Method ≠ .TRACE := notTrace
  by_cases hx : HasVariables ops ∧ (arriving ops req).Path = []
  · refine .inl ⟨(hdo req b).1 hx.1 hx.2, (hdo' req b').1 ((hasVariables_keys keys).1 hx.1) ?_⟩
    rw [arr]; exact hx.2
  have hx' : ¬ (HasVariables ops' ∧ (arriving ops' req).Path = []) := by
    rw [arr, ← hasVariables_keys keys]; exact hx
  right
  rcases (hdo req b).2 hx with ⟨e, -⟩ | ⟨-, k, r, h1, h2⟩
  · exact absurd e.1 notTrace'
  rcases (hdo' req b').2 hx' with ⟨e, -⟩ | ⟨-, k', r', g1, g2⟩
  · rw [arr] at e; exact absurd e.1 notTrace'
  rw [arr] at g1
  generalize arriving ops req = R at *
  have c2 : Chosen F text ops L R k' r' := by
    cases g1 with
    | route a1 a2 a3 =>
      rw [← methodsOf_keys keys] at a2
      exact .route ((hf _ _ _).2 a1) a2 (hroute _ _ _ _ ((hf _ _ _).2 a1) (.inl rfl) a3)
    | head a1 a2 a3 a4 a5 =>
      rw [← methodsOf_keys keys] at a2 a4
      exact .head ((hf _ _ _).2 a1) a2 a3 a4 (hroute _ _ _ _ ((hf _ _ _).2 a1) (.inr ⟨a3, a4, rfl⟩) a5)
    | notAllowed a1 a2 a3 a4 a5 =>
      rw [← methodsOf_keys keys] at a2 a3 a4
      rw [h405 ⟨_, _, (hf _ _ _).2 a1, a3, a4⟩] at a5
      exact .notAllowed ((hf _ _ _).2 a1) a2 a3 a4 a5
    | caught a1 a2 a3 a4 a5 =>
      have none := fun route values hx => a1 route values ((hf _ _ _).1 hx)
      obtain ⟨hc, -⟩ := hlost none
      exact .caught none ((hl _ _).2 a2) ((hc _ a4).1 a3) a4 (fun c hm hp => a5 c ((hc c hp).2 hm) hp)
    | notFound a1 a2 a3 a4 =>
      have none := fun route values hx => a1 route values ((hf _ _ _).1 hx)
      obtain ⟨hc, h404⟩ := hlost none
      have nc : ∀ c ∈ catchers ops, ¬ c.1 <+: R.Path := fun c hm hp => a3 c ((hc c hp).2 hm) hp
      rw [h404 nc] at a4
      exact .notFound none ((hl _ _).2 a2) nc a4
  obtain ⟨rfl, hr⟩ := chosen_one (built F text env ops rt made).nodup ties.catchers (fun a b c d => C104_one_route made L hL R a b c d) h1 c2
  exact ⟨k, r, r', h2, g2, hr.imp (·.2) (·.2)⟩

/-! ### What is the same -/

omit [Monad m] in
private theorem places_more (op : Op m) (h : ∀ r pre, op ≠ .group r pre) : places (ops ++ [op]) = places ops := by
  rw [places, places, List.foldl_append]
  cases op with
  | group r pre => exact absurd rfl (h r pre)
  | _ => rfl

omit [Monad m] in
private theorem prefixOf_more (op : Op m) (h : ∀ r pre, op ≠ .group r pre) : prefixOf (ops ++ [op]) = prefixOf ops := by
  funext r
  rw [prefixOf, prefixOf, places_more op h]

omit [Monad m] in
private theorem flatMap_more {β : Type} (op : Op m) (f : Op m → List β) (h : f op = []) : (ops ++ [op]).flatMap f = ops.flatMap f := by
  rw [List.flatMap_append, List.flatMap_cons, h]; simp

omit [Monad m] in
private theorem mutated_more (op : Op m) (h : ∀ r pre, op ≠ .group r pre) (h' : ∀ r f, op ≠ .mutator r f) (h'' : ∀ r s t, op ≠ .alias r s t) (req : Request) : mutated (ops ++ [op]) req = mutated ops req := by
  have key : ∀ fuel r, mutatorsIn (ops ++ [op]) fuel r = mutatorsIn ops fuel r := by
    intro fuel
    induction fuel with
    | zero => intro r; rfl
    | succ fuel ih =>
      intro r
      have hk : kids (ops ++ [op]) r = kids ops r := by rw [kids, kids, places_more op h]
      have ho : ownMutators (ops ++ [op]) r = ownMutators ops r := by
        rw [ownMutators, prefixOf_more op h, flatMap_more]
        · rfl
        · cases op with
          | mutator r f => exact absurd rfl (h' r f)
          | alias r s t => exact absurd rfl (h'' r s t)
          | _ => rfl
      rw [mutatorsIn, mutatorsIn, ho, hk]
      congr 2
      funext r
      exact ih r
  rw [mutated, mutated, key, places_more op h]

omit [Monad m] in
private theorem uses_more (op : Op m) (h : ∀ r mws, op ≠ .use r mws) : uses (ops ++ [op]) = uses ops := by
  funext r
  rw [uses, flatMap_more]
  · rfl
  · cases op with
    | use r mws => exact absurd rfl (h r mws)
    | _ => rfl

omit [Monad m] in
private theorem around_more (op : Op m) (hg : ∀ r pre, op ≠ .group r pre) (h : ∀ r mws, op ≠ .use r mws) : around (ops ++ [op]) = around ops := by
  funext r
  rw [around, around, places_more op hg, uses_more op h]

omit [Monad m] in
private theorem declared_more (op : Op m) (hg : ∀ r pre, op ≠ .group r pre) (hu : ∀ r mws, op ≠ .use r mws) (hr : ∀ r meth p h mws, op ≠ .route r meth p h mws) : declared (ops ++ [op]) = declared ops := by
  rw [declared, prefixOf_more op hg, around_more op hg hu, flatMap_more]
  · rfl
  · cases op with
    | route r meth p h mws => exact absurd rfl (hr r meth p h mws)
    | _ => rfl

/-- Errors, if the handlers and the catchers for them are the same. -/
private theorem error_alike (made : make F text env ops = some rt) (made' : make F text env' ops' = some rt') (hm : ∀ req, mutated ops' req = mutated ops req) {req : Request} {err : GoErr}
    (hcs : err = .http Status.ErrNotFound → ∀ c : Bytes × Handler m, c.1 <+: (mutated ops req).Path → (c ∈ catchers ops' ↔ c ∈ catchers ops)) (hes : ∀ e, err = .http e → handlerFor F text ops' e.Code = handlerFor F text ops e.Code)
    (ties : ((catchers ops).map (·.1)).Nodup) (reqs reqs' : List Request) (now now' : Runtime m) (served : serving F rt reqs = some now) (served' : serving F rt' reqs' = some now') (notTrace : (mutated ops req).Method ≠ .TRACE) :
    ∃ x, now.onError F req err = (x, now) ∧ now'.onError F req err = (x, now') := by
  obtain ⟨b, rfl⟩ := served_state made reqs now served
  obtain ⟨b', rfl⟩ := served_state made' reqs' now' served'
  have ht : ¬ ((mutated ops req).Method = .TRACE ∧ err = .http Status.ErrMethodNotAllowed) := fun h => notTrace h.1
  have hb := built F text env ops rt made
  have hb' := built F text env' _ rt' made'
  obtain ⟨x, b0, k1, k2⟩ := onError_same (mutated ops req) err (fun h c hp => (hcs h c hp).symm) (fun e h => (hes e h).symm) ties hb hb' []
  rw [onError_buff F rt [] _ err ht] at k1
  rw [onError_buff F rt' [] _ err ht] at k2
  have m1 : Runtime.runMutators { rt with traceBuff := b } req = mutated ops req := runMutators_eq hb req
  have m2 : Runtime.runMutators { rt' with traceBuff := b' } req = mutated ops req := by
    rw [← hm]; exact runMutators_eq hb' req
  refine ⟨x, ?_, ?_⟩
  · rw [Runtime.onError, m1, onError_buff F rt b _ err ht, (Prod.mk.inj k1).1]
  · rw [Runtime.onError, m2, onError_buff F rt' b' _ err ht, (Prod.mk.inj k2).1]

/-! ### A new catcher -/

omit [Monad m] in
private theorem catchers_catch {q : Nat} {pre : Bytes} {h : Handler m} {mws : List (Middleware m)} :
    catchers (ops ++ [.catch q pre h mws]) = catchers ops ++ [(GoPath.join (prefixOf ops q) pre, wrap (around ops q ++ mws) h)] := by
  rw [catchers, prefixOf_more _ (by simp), around_more _ (by simp) (by simp), List.flatMap_append]
  rfl

private theorem handlerFor_catch {q : Nat} {pre : Bytes} {h : Handler m} {mws : List (Middleware m)} (code : Status.Code) : handlerFor F text (ops ++ [.catch q pre h mws]) code = handlerFor F text ops code := by
  have e : errorHandlers (defaults F text) (ops ++ [.catch q pre h mws]) = errorHandlers (m := m) (defaults F text) ops := by
    rw [errorHandlers, errorHandlers, uses_more _ (by simp), flatMap_more _ _ rfl]
  rw [handlerFor, handlerFor, e]

/-- **C118.** A new catcher concerns only requests for which no route is found and whose path begins with its prefix: for all others the same handler is called as before. -/
theorem C118_catcher (made : make F text env ops = some rt) {q : Nat} {pre : Bytes} {h : Handler m} {mws : List (Middleware m)} (made' : make F text env' (ops ++ [.catch q pre h mws]) = some rt') (ties : NoTies ops) :
    ∃ L, Looks ops L ∧ ∀ reqs reqs' now now', serving F rt reqs = some now → serving F rt' reqs' = some now' → ∀ req, (mutated ops req).Method ≠ .TRACE →
      ((∃ route values, L.found (arriving ops req) route values) ∨ ¬ GoPath.join (prefixOf ops q) pre <+: (arriving ops req).Path) →
      (now.onRequest F req = none ∧ now'.onRequest F req = none) ∨
      ∃ (k : Handler m) (r r' : Request), now.onRequest F req = some (k r, now) ∧ now'.onRequest F req = some (k r', now') ∧ (AlikeFound r r' ∨ AlikeLost r r') := by
  have hd : declared (ops ++ [.catch q pre h mws]) = declared ops := declared_more _ (by simp) (by simp) (by simp)
  have hc : catchers (ops ++ [.catch q pre h mws]) = catchers ops ++ [(GoPath.join (prefixOf ops q) pre, wrap (around ops q ++ mws) h)] := catchers_catch
  have hh : ∀ code, handlerFor F text (ops ++ [.catch q pre h mws]) code = handlerFor F text ops code := handlerFor_catch
  obtain ⟨L, hL, key⟩ := other_alike made made' (by rw [hd]; simp) (fun req => by rw [arriving, arriving, mutated_more _ (by simp) (by simp) (by simp)]) ties
  refine ⟨L, hL, ?_⟩
  intro reqs reqs' now now' served served' req notTrace other
  refine key reqs reqs' now now' served served' req notTrace ?_ (fun _ => hh _) ?_
  · rw [hd]; exact fun _ _ _ _ _ _ h => h
  · intro hn
    refine ⟨fun c hp => ?_, fun _ => hh _⟩
    rw [hc, List.mem_append]
    refine ⟨?_, .inl⟩
    rintro (hm | hm)
    · exact hm
    · rw [List.mem_singleton] at hm
      subst hm
      rcases other with ⟨_, _, h⟩ | h
      · exact absurd h (hn _ _)
      · exact absurd hp h

/-- **C118.** A new catcher and errors: it concerns only errors 404 of requests whose path begins with its prefix. -/
theorem C118_catcher_errors (made : make F text env ops = some rt) {q : Nat} {pre : Bytes} {h : Handler m} {mws : List (Middleware m)} (made' : make F text env' (ops ++ [.catch q pre h mws]) = some rt')
    (ties : ((catchers ops).map (·.1)).Nodup) (reqs reqs' : List Request) (now now' : Runtime m) (served : serving F rt reqs = some now) (served' : serving F rt' reqs' = some now')
    (req : Request) (notTrace : (mutated ops req).Method ≠ .TRACE) (err : GoErr) (other : err = .http Status.ErrNotFound → ¬ GoPath.join (prefixOf ops q) pre <+: (mutated ops req).Path) :
    ∃ x, now.onError F req err = (x, now) ∧ now'.onError F req err = (x, now') := by
  refine error_alike made made' (mutated_more _ (by simp) (by simp) (by simp)) ?_ (fun e _ => handlerFor_catch e.Code) ties reqs reqs' now now' served served' notTrace
  intro he c hp
  rw [catchers_catch, List.mem_append]
  refine ⟨?_, .inl⟩
  rintro (hm | hm)
  · exact hm
  · rw [List.mem_singleton] at hm
    subst hm
    exact absurd hp (other he)

/-! ### A new error handler -/

omit [Monad m] in
private theorem lastFor_append {α : Type} (l new : List (Status.Code × α)) (code : Status.Code) (h : ∀ e ∈ new, e.1 ≠ code) : lastFor (l ++ new) code = lastFor l code := by
  rw [Router.lastFor, Router.lastFor, List.reverse_append, List.find?_append]
  have : new.reverse.find? (fun e => e.1 = code) = none := by
    rw [List.find?_eq_none]
    intro e he
    simpa using h e (List.mem_reverse.1 he)
  rw [this, Option.none_or]

private theorem handlerFor_more {q : Nat} {h : Handler m} {codes : List Status.Code} (named : codes ≠ []) (own : 0 ∉ codes) (code : Status.Code) (other : code ∉ codes) :
    handlerFor F text (ops ++ [.routeError q h codes]) code = handlerFor F text ops code := by
  have e : errorHandlers (defaults F text) (ops ++ [.routeError q h codes]) = errorHandlers (m := m) (defaults F text) ops ++ codes.map (fun c => (c, wrap (uses ops 0) h)) := by
    rw [errorHandlers, errorHandlers, uses_more _ (by simp), List.flatMap_append, ← List.append_assoc, List.map_append]
    congr 1
    simp [named]
  rw [handlerFor, handlerFor, e, lastFor_append, lastFor_append]
  · intro x hx
    obtain ⟨c, hc, rfl⟩ := List.mem_map.1 hx
    exact fun h => own (h ▸ hc)
  · intro x hx
    obtain ⟨c, hc, rfl⟩ := List.mem_map.1 hx
    exact fun h => other (h ▸ hc)

/-- **C118.** A new error handler for certain codes concerns only errors with these codes. Requests for which a route is found with a handler for their method, or a catcher; those which are refused with 405, if this is not one of the codes; and those
for which nothing is found, if 404 is not one of them, are handled as before. -/
theorem C118_errorHandler (made : make F text env ops = some rt) {q : Nat} {h : Handler m} {codes : List Status.Code} (named : codes ≠ []) (own : 0 ∉ codes)
    (made' : make F text env' (ops ++ [.routeError q h codes]) = some rt') (ties : NoTies ops) :
    ∃ L, Looks ops L ∧ ∀ reqs reqs' now now', serving F rt reqs = some now → serving F rt' reqs' = some now' → ∀ req, (mutated ops req).Method ≠ .TRACE →
      (((∃ route values, L.found (arriving ops req) route values ∧ (405 ∉ codes ∨ (arriving ops req).Method ∈ methodsOf ops route ∨ ((arriving ops req).Method = .HEAD ∧ .GET ∈ methodsOf ops route))) ∨
        ((∀ route values, ¬ L.found (arriving ops req) route values) ∧ (404 ∉ codes ∨ ∃ c ∈ catchers ops, c.1 <+: (arriving ops req).Path))) →
        (now.onRequest F req = none ∧ now'.onRequest F req = none) ∨
        ∃ (k : Handler m) (r r' : Request), now.onRequest F req = some (k r, now) ∧ now'.onRequest F req = some (k r', now') ∧ (AlikeFound r r' ∨ AlikeLost r r')) ∧
      ∀ err, (∀ e, err = .http e → e.Code ∉ codes) → ∃ x, now.onError F req err = (x, now) ∧ now'.onError F req err = (x, now') := by
  have hd : declared (ops ++ [.routeError q h codes]) = declared ops := declared_more _ (by simp) (by simp) (by simp)
  have hc : catchers (ops ++ [.routeError q h codes]) = catchers ops := by
    rw [catchers, prefixOf_more _ (by simp), around_more _ (by simp) (by simp), flatMap_more _ _ rfl]
    rfl
  have hm : ∀ req, mutated (ops ++ [.routeError q h codes]) req = mutated ops req := mutated_more _ (by simp) (by simp) (by simp)
  obtain ⟨L, hL, key⟩ := other_alike made made' (by rw [hd]; simp) (fun req => by rw [arriving, arriving, hm]) ties
  refine ⟨L, hL, ?_⟩
  intro reqs reqs' now now' served served' req notTrace
  refine ⟨fun other => key reqs reqs' now now' served served' req notTrace ?_ ?_ ?_, ?_⟩
  · rw [hd]; exact fun _ _ _ _ _ _ h => h
  · rintro ⟨route, values, f1, f2, f3⟩
    refine handlerFor_more named own _ ?_
    rcases other with ⟨route', values', g1, g2⟩ | ⟨g1, -⟩
    · obtain ⟨rfl, -⟩ := C104_one_route made L hL _ _ _ _ _ f1 g1
      rcases g2 with g2 | g2 | ⟨g2, g3⟩
      · exact g2
      · exact absurd g2 f2
      · exact absurd g3 (f3 g2)
    · exact absurd f1 (g1 _ _)
  · intro hn
    refine ⟨fun c _ => by rw [hc], fun nc => handlerFor_more named own _ ?_⟩
    rcases other with ⟨route', values', g1, -⟩ | ⟨-, g | ⟨c, c1, c2⟩⟩
    · exact absurd g1 (hn _ _)
    · exact g
    · exact absurd c2 (nc c c1)
  · intro err he
    exact error_alike made made' hm (fun _ _ _ => by rw [hc]) (fun e h => handlerFor_more named own e.Code (he e h)) ties.catchers reqs reqs' now now' served served' notTrace

/-! ### New middlewares of a group -/

omit [Monad m] in
private theorem uses_use (q r : Nat) (mws : List (Middleware m)) (h : r ≠ q) : uses (ops ++ [.use q mws]) r = uses ops r := by
  rw [uses, uses, List.flatMap_append]
  have : q ≠ r := fun e => h e.symm
  simp [this]

omit [Monad m] in
private theorem around_use (q r : Nat) (mws : List (Middleware m)) (h : ¬ Within ops q r) : around (ops ++ [.use q mws]) r = around ops r := by
  rw [around, around, places_more _ (by simp)]
  cases hp : (places ops)[r]? with
  | none => rfl
  | some p =>
    simp only [Option.map_some, Option.getD_some]
    have hq : q ∉ p.line := fun hm => h ⟨p, hp, hm⟩
    generalize p.line = line at hq
    induction line with
    | nil => rfl
    | cons i line ih =>
      rw [List.flatMap_cons, List.flatMap_cons, uses_use q i mws (by rintro rfl; exact hq (List.mem_cons_self ..)), ih (fun hm => hq (List.mem_cons_of_mem _ hm))]

/-- **C118.** New middlewares of a group concern only the routes and the catchers of this group and of the groups nested in it: for all requests whose route is another one, or which have none and whose path no such catcher is for, the same handler is called as before. -/
theorem C118_middlewares (made : make F text env ops = some rt) {q : Nat} (group : q ≠ 0) {mws : List (Middleware m)} (made' : make F text env' (ops ++ [.use q mws]) = some rt') (ties : NoTies ops) :
    ∃ L, Looks ops L ∧ ∀ reqs reqs' now now', serving F rt reqs = some now → serving F rt' reqs' = some now' → ∀ req, (mutated ops req).Method ≠ .TRACE →
      (∀ route values meth, L.found (arriving ops req) route values → (meth = (arriving ops req).Method ∨ ((arriving ops req).Method = .HEAD ∧ .HEAD ∉ methodsOf ops route ∧ meth = .GET)) →
        ¬ RouteWithin ops q route meth) →
      ((∀ route values, ¬ L.found (arriving ops req) route values) → ∀ pre, pre <+: (arriving ops req).Path → ¬ CatcherWithin ops q pre) →
      (now.onRequest F req = none ∧ now'.onRequest F req = none) ∨
      ∃ (k : Handler m) (r r' : Request), now.onRequest F req = some (k r, now) ∧ now'.onRequest F req = some (k r', now') ∧ (AlikeFound r r' ∨ AlikeLost r r') := by
  have hp : prefixOf (ops ++ [.use q mws]) = prefixOf ops := prefixOf_more _ (by simp)
  have hd : ∀ o : List (Op m), ∀ d, d ∈ declared o ↔ ∃ r meth p h mws, Op.route r meth p h mws ∈ o ∧ d = ((UriNormalize.normalize (prefixOf o r ++ p), meth), wrap (around o r ++ mws) h) := by
    intro o d
    rw [declared, List.mem_flatMap]
    constructor
    · rintro ⟨op, ho, hm⟩
      cases op with
      | route r meth p h mws => exact ⟨r, meth, p, h, mws, ho, List.mem_singleton.1 hm⟩
      | _ => cases hm
    · rintro ⟨r, meth, p, h, mws, ho, rfl⟩
      exact ⟨_, ho, List.mem_singleton.2 rfl⟩
  have hcs : ∀ o : List (Op m), ∀ c, c ∈ catchers o ↔ ∃ r p h mws, Op.catch r p h mws ∈ o ∧ c = (GoPath.join (prefixOf o r) p, wrap (around o r ++ mws) h) := by
    intro o d
    rw [catchers, List.mem_flatMap]
    constructor
    · rintro ⟨op, ho, hm⟩
      cases op with
      | «catch» r p h mws => exact ⟨r, p, h, mws, ho, List.mem_singleton.1 hm⟩
      | _ => cases hm
    · rintro ⟨r, p, h, mws, ho, rfl⟩
      exact ⟨_, ho, List.mem_singleton.2 rfl⟩
  have hmem : ∀ op : Op m, (∀ r mws, op ≠ .use r mws) → (op ∈ ops ++ [.use q mws] ↔ op ∈ ops) := by
    intro op h
    rw [List.mem_append, List.mem_singleton]
    exact ⟨fun hx => hx.resolve_right (h _ _), .inl⟩
  have hh : ∀ code, handlerFor F text (ops ++ [.use q mws]) code = handlerFor F text ops code := by
    intro code
    have e : errorHandlers (defaults F text) (ops ++ [.use q mws]) = errorHandlers (m := m) (defaults F text) ops := by
      rw [errorHandlers, errorHandlers, uses_use q 0 mws (Ne.symm group), flatMap_more _ _ rfl]
    rw [handlerFor, handlerFor, e]
  have keys : ∀ x, x ∈ (declared ops).map (·.1) ↔ x ∈ (declared (ops ++ [.use q mws])).map (·.1) := by
    intro x
    simp only [List.mem_map, hd, hp]
    constructor
    · rintro ⟨d, ⟨r, meth, p, h, ms, ho, rfl⟩, rfl⟩
      exact ⟨_, ⟨r, meth, p, h, ms, (hmem _ (by simp)).2 ho, rfl⟩, rfl⟩
    · rintro ⟨d, ⟨r, meth, p, h, ms, ho, rfl⟩, rfl⟩
      exact ⟨_, ⟨r, meth, p, h, ms, (hmem _ (by simp)).1 ho, rfl⟩, rfl⟩
  obtain ⟨L, hL, key⟩ := other_alike made made' keys (fun req => by rw [arriving, arriving, mutated_more _ (by simp) (by simp) (by simp)]) ties
  refine ⟨L, hL, ?_⟩
  intro reqs reqs' now now' served served' req notTrace routes none
  refine key reqs reqs' now now' served served' req notTrace ?_ (fun _ => hh _) ?_
  · intro route values meth k hf hm hk
    have := routes route values meth hf hm
    rw [hd] at hk ⊢
    obtain ⟨r, meth', p, h, ms, ho, e⟩ := hk
    rw [hp] at e
    have ho' := (hmem _ (by simp)).1 ho
    have e1 : route = UriNormalize.normalize (prefixOf ops r ++ p) ∧ meth = meth' := by
      have := congrArg (·.1) e
      simpa using this
    obtain ⟨rfl, rfl⟩ := e1
    refine ⟨r, meth, p, h, ms, ho', ?_⟩
    rw [e, around_use q r mws (fun w => this ⟨r, p, h, ms, ho', rfl, w⟩)]
  · intro hn
    refine ⟨fun c hpre => ?_, fun _ => hh _⟩
    have out := none hn c.1 hpre
    rw [hcs, hcs]
    constructor
    · rintro ⟨r, p, h, ms, ho, e⟩
      rw [hp] at e
      have ho' := (hmem _ (by simp)).1 ho
      refine ⟨r, p, h, ms, ho', ?_⟩
      rw [e, around_use q r mws (fun w => out ⟨r, p, h, ms, ho', by rw [e], w⟩)]
    · rintro ⟨r, p, h, ms, ho, e⟩
      refine ⟨r, p, h, ms, (hmem _ (by simp)).2 ho, ?_⟩
      rw [hp, e, around_use q r mws (fun w => out ⟨r, p, h, ms, ho, by rw [e], w⟩)]

private theorem handlerFor_use {q : Nat} (group : q ≠ 0) {mws : List (Middleware m)} (code : Status.Code) : handlerFor F text (ops ++ [.use q mws]) code = handlerFor F text ops code := by
  have e : errorHandlers (defaults F text) (ops ++ [.use q mws]) = errorHandlers (m := m) (defaults F text) ops := by
    rw [errorHandlers, errorHandlers, uses_use q 0 mws (Ne.symm group), flatMap_more _ _ rfl]
  rw [handlerFor, handlerFor, e]

omit [Monad m] in
private theorem mem_catchers (o : List (Op m)) (d : Bytes × Handler m) : d ∈ catchers o ↔ ∃ r p h mws, Op.catch r p h mws ∈ o ∧ d = (GoPath.join (prefixOf o r) p, wrap (around o r ++ mws) h) := by
  rw [catchers, List.mem_flatMap]
  constructor
  · rintro ⟨op, ho, hm⟩
    cases op with
    | «catch» r p h mws => exact ⟨r, p, h, mws, ho, List.mem_singleton.1 hm⟩
    | _ => cases hm
  · rintro ⟨r, p, h, mws, ho, rfl⟩
    exact ⟨_, ho, List.mem_singleton.2 rfl⟩

omit [Monad m] in
private theorem catchers_use {q : Nat} {mws : List (Middleware m)} (c : Bytes × Handler m) (out : ¬ CatcherWithin ops q c.1) : c ∈ catchers (ops ++ [.use q mws]) ↔ c ∈ catchers ops := by
  have hp : prefixOf (ops ++ [.use q mws]) = prefixOf ops := prefixOf_more _ (by simp)
  rw [mem_catchers, mem_catchers]
  constructor
  · rintro ⟨r, p, h, ms, ho, e⟩
    rw [hp] at e
    have ho' : Op.catch r p h ms ∈ ops := by simpa using ho
    refine ⟨r, p, h, ms, ho', ?_⟩
    rw [e, around_use q r mws (fun w => out ⟨r, p, h, ms, ho', by rw [e], w⟩)]
  · rintro ⟨r, p, h, ms, ho, e⟩
    refine ⟨r, p, h, ms, by simpa using ho, ?_⟩
    rw [hp, e, around_use q r mws (fun w => out ⟨r, p, h, ms, ho, by rw [e], w⟩)]

/-- **C118.** New middlewares of a group and errors: they concern only errors 404 of requests whose path begins with the prefix of a catcher of this group, or of one nested in it. -/
theorem C118_middlewares_errors (made : make F text env ops = some rt) {q : Nat} (group : q ≠ 0) {mws : List (Middleware m)} (made' : make F text env' (ops ++ [.use q mws]) = some rt')
    (ties : ((catchers ops).map (·.1)).Nodup) (reqs reqs' : List Request) (now now' : Runtime m) (served : serving F rt reqs = some now) (served' : serving F rt' reqs' = some now')
    (req : Request) (notTrace : (mutated ops req).Method ≠ .TRACE) (err : GoErr) (other : err = .http Status.ErrNotFound → ∀ pre, pre <+: (mutated ops req).Path → ¬ CatcherWithin ops q pre) :
    ∃ x, now.onError F req err = (x, now) ∧ now'.onError F req err = (x, now') :=
  error_alike made made' (mutated_more _ (by simp) (by simp) (by simp)) (fun he c hp => catchers_use c (other he c.1 hp)) (fun e _ => handlerFor_use group e.Code) ties reqs reqs' now now' served served' notTrace

end

/-! ### The hypotheses can be met -/

private def sayCode (code : Nat) : Handler Id := fun r => pure (Fields.new.code code, r)

private def twice : Middleware Id := fun next r => let x := next r; ({ x.1 with Code := x.1.Code + 100 }, x.2)

/-- A route of the root, a group with a route and a catcher, and a catcher of the root. -/
private def base : List (Op Id) :=
  [.group 0 b!"/api", .route 1 .GET b!"/now" (sayCode 201) [], .catch 1 b!"/old" (sayCode 203) [], .route 0 .GET b!"/about" (sayCode 202) [], .catch 0 b!"/old" (sayCode 204) []]

private def answers (ops : List (Op Id)) : List (Option Nat) :=
  [b!"/api/now", b!"/api/old/x", b!"/about", b!"/old/x", b!"/else"].map (fun path =>
    ((make sampleFold (fun _ => []) sampleEnv ops).bind (fun rt => rt.onRequest sampleFold { Method := .GET, Path := path })).map (fun x => (Id.run x.1).1.Code))

/-- The program, and what additions change: catchers under `/elsewhere` and `/else`, an error handler for 404, a middleware of the group. -/
example : answers base = [some 201, some 203, some 202, some 204, some 404] ∧
    answers (base ++ [.catch 0 b!"/elsewhere" (sayCode 205) []]) = [some 201, some 203, some 202, some 204, some 404] ∧
    answers (base ++ [.catch 0 b!"/else" (sayCode 205) []]) = [some 201, some 203, some 202, some 204, some 205] ∧
    answers (base ++ [.routeError 0 (sayCode 206) [404]]) = [some 201, some 203, some 202, some 204, some 206] ∧
    answers (base ++ [.use 1 [twice]]) = [some 301, some 303, some 202, some 204, some 404] := by
  decide +kernel

private def errorAnswers (ops : List (Op Id)) : List (Option Nat) :=
  [(b!"/api/old/x", GoErr.http Status.ErrNotFound), (b!"/old/x", .http Status.ErrNotFound), (b!"/else", .http Status.ErrNotFound), (b!"/else", .http Status.ErrBadRequest)].map (fun x =>
    (make sampleFold (fun _ => []) sampleEnv ops).map (fun rt => (Id.run (rt.onError sampleFold { Method := .GET, Path := x.1 } x.2).1).1.Code))

/-- The same for errors. -/
example : errorAnswers base = [some 203, some 204, some 404, some 400] ∧
    errorAnswers (base ++ [.catch 0 b!"/elsewhere" (sayCode 205) []]) = [some 203, some 204, some 404, some 400] ∧
    errorAnswers (base ++ [.catch 0 b!"/else" (sayCode 205) []]) = [some 203, some 204, some 205, some 400] ∧
    errorAnswers (base ++ [.routeError 0 (sayCode 206) [404]]) = [some 203, some 204, some 206, some 400] ∧
    errorAnswers (base ++ [.use 1 [twice]]) = [some 303, some 204, some 404, some 400] := by
  decide +kernel

private theorem base_templates : templatesOf base = [[.lit b!"api", .lit b!"now"], [.lit b!"about"]] := by decide +kernel

/-- There are no ties. -/
example : NoTies base := by
  refine ⟨?_, ?_⟩
  · have e : (catchers base).map (·.1) = [b!"/api/old", b!"/old"] := by decide +kernel
    rw [e]; decide
  · rintro ⟨t, ht, n, hn⟩
    rw [base_templates] at ht
    simp only [List.mem_cons, List.not_mem_nil, or_false] at ht
    rcases ht with rfl | rfl <;> simp at hn

/-- The route `/about` and the catcher `/old` are not in the group, the others are. -/
example : ¬ RouteWithin base 1 b!"/about" .GET ∧ RouteWithin base 1 b!"/api/now" .GET ∧ ¬ CatcherWithin base 1 b!"/old" ∧ CatcherWithin base 1 b!"/api/old" := by
  have hp : places base = [⟨[0], []⟩, ⟨[0, 1], b!"/api"⟩] := rfl
  have w0 : ¬ Within base 1 0 := by
    rintro ⟨p, h, hm⟩
    rw [hp] at h
    cases h
    simp at hm
  have w1 : Within base 1 1 := ⟨⟨[0, 1], b!"/api"⟩, rfl, by simp⟩
  refine ⟨?_, ⟨1, b!"/now", sayCode 201, [], by simp [base], by decide +kernel, w1⟩, ?_, ⟨1, b!"/old", sayCode 203, [], by simp [base], by decide +kernel, w1⟩⟩
  · rintro ⟨r, p, h, mws, ho, e, w⟩
    simp only [base, List.mem_cons, List.not_mem_nil, or_false, reduceCtorEq, false_or, Op.route.injEq] at ho
    rcases ho with ⟨rfl, -, rfl, -⟩ | ⟨rfl, -⟩
    · exact absurd e (by decide +kernel)
    · exact w0 w
  · rintro ⟨r, p, h, mws, ho, e, w⟩
    simp only [base, List.mem_cons, List.not_mem_nil, or_false, reduceCtorEq, false_or, Op.catch.injEq] at ho
    rcases ho with ⟨rfl, rfl, -⟩ | ⟨rfl, -⟩
    · exact absurd e (by decide +kernel)
    · exact w0 w

end Indigo.Props
