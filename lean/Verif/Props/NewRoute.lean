/-
C117: new routes.
-/
import Verif.Props.Reorder
import Verif.Spec.NewRoute

namespace Indigo.Props
open Indigo.Router Indigo.Spec Indigo.Spec.Router Indigo.Spec.Radix

section
variable {m : Type → Type} {ops news : List (Op m)}

/-! ### What is added -/

private theorem places_added (only : OnlyRoutes news) : places (ops ++ news) = places ops := by
  rw [places, places, List.foldl_append]
  generalize List.foldl _ _ ops = ps
  induction news generalizing ps with
  | nil => rfl
  | cons op news ih =>
    obtain ⟨r, meth, path, h, mws, rfl⟩ := only _ (List.mem_cons_self ..)
    exact ih (fun op ho => only op (List.mem_cons_of_mem _ ho)) ps

private theorem flatMap_nil {β : Type} (only : OnlyRoutes news) (f : Op m → List β) (hf : ∀ r meth path h mws, f (.route r meth path h mws) = []) : (ops ++ news).flatMap f = ops.flatMap f := by
  rw [List.flatMap_append]
  have : news.flatMap f = [] := by
    rw [List.flatMap_eq_nil_iff]
    intro op ho
    obtain ⟨r, meth, path, h, mws, rfl⟩ := only op ho
    exact hf _ _ _ _ _
  rw [this, List.append_nil]

private theorem uses_added (only : OnlyRoutes news) : uses (ops ++ news) = uses ops := by
  funext r
  exact flatMap_nil only _ (fun _ _ _ _ _ => rfl)

private theorem prefixOf_added (only : OnlyRoutes news) : prefixOf (ops ++ news) = prefixOf ops := by
  funext r
  rw [prefixOf, prefixOf, places_added only]

private theorem around_added (only : OnlyRoutes news) : around (ops ++ news) = around ops := by
  funext r
  rw [around, around, places_added only, uses_added only]

private theorem declared_added (only : OnlyRoutes news) :
    ∃ new, declared (ops ++ news) = declared ops ++ new ∧ new.map (·.1.1) = addedPaths ops news := by
  have e : declared (ops ++ news) = declared ops ++ news.flatMap (fun
      | .route r meth path h mws => [((UriNormalize.normalize (prefixOf ops r ++ path), meth), wrap (around ops r ++ mws) h)]
      | _ => []) := by
    rw [declared, List.flatMap_append, prefixOf_added only, around_added only]
    rfl
  refine ⟨_, e, ?_⟩
  rw [addedPaths, List.map_flatMap]
  congr 1
  funext op
  cases op <;> rfl

private theorem catchers_added (only : OnlyRoutes news) : catchers (ops ++ news) = catchers ops := by
  rw [catchers, prefixOf_added only, around_added only]
  exact flatMap_nil only _ (fun _ _ _ _ _ => rfl)

private theorem mutated_added (only : OnlyRoutes news) (req : Request) : mutated (ops ++ news) req = mutated ops req := by
  have key : ∀ fuel r, mutatorsIn (ops ++ news) fuel r = mutatorsIn ops fuel r := by
    intro fuel
    induction fuel with
    | zero => intro r; rfl
    | succ fuel ih =>
      intro r
      have hk : kids (ops ++ news) r = kids ops r := by rw [kids, kids, places_added only]
      have ho : ownMutators (ops ++ news) r = ownMutators ops r := by
        rw [ownMutators, prefixOf_added only]
        exact flatMap_nil only _ (fun _ _ _ _ _ => rfl)
      rw [mutatorsIn, mutatorsIn, ho, hk]
      congr 2
      funext r
      exact ih r
  rw [mutated, mutated, key, places_added only]

private theorem arriving_added (only : OnlyRoutes news) (req : Request) : arriving (ops ++ news) req = arriving ops req := by
  rw [arriving, arriving, mutated_added only]

variable [Monad m] {F : Fold} {text : GoErr → Bytes} {env env' : Env m} {rt rt' : Runtime m}

private theorem handlerFor_added (only : OnlyRoutes news) (code : Status.Code) : handlerFor F text (ops ++ news) code = handlerFor F text ops code := by
  have e : errorHandlers (defaults F text) (ops ++ news) = errorHandlers (m := m) (defaults F text) ops := by
    rw [errorHandlers, errorHandlers, uses_added only, flatMap_nil only _ (fun _ _ _ _ _ => rfl)]
  rw [handlerFor, handlerFor, e]

omit [Monad m] in
private theorem methodsOf_added {o o' : List (Op m)} {p : Bytes} (h : ∀ meth k, ((p, meth), k) ∈ declared o ↔ ((p, meth), k) ∈ declared o') : methodsOf o p = methodsOf o' p := by
  rw [methodsOf, methodsOf]
  congr 1
  funext meth
  rw [Bool.eq_iff_iff, List.any_eq_true, List.any_eq_true]
  constructor
  · rintro ⟨⟨⟨p', meth'⟩, k⟩, h1, h2⟩
    simp only [decide_eq_true_eq] at h2
    cases h2
    exact ⟨_, (h _ _).1 h1, by simp⟩
  · rintro ⟨⟨⟨p', meth'⟩, k⟩, h1, h2⟩
    simp only [decide_eq_true_eq] at h2
    cases h2
    exact ⟨_, (h _ _).2 h1, by simp⟩

/-! ### With variables -/

omit [Monad m] in
/-- The two lookups agree about paths which go another way. -/
private theorem found_added (only : OnlyRoutes news) (hv : HasVariables ops) (ties : NoTies (ops ++ news)) {L L' : Lookup} (hL : Looks ops L) (hL' : Looks (ops ++ news) L') (R : Request)
    (other : ∀ path, R.Path = SLASH :: path → ∀ p ∈ addedPaths ops news, ∀ t, meant p = some t → Elsewhere ops t (sections path)) :
    (∀ route values, L.found R route values ↔ L'.found R route values) ∧
    ∀ route values, L.found R route values → ∀ meth k, ((route, meth), k) ∈ declared ops ↔ ((route, meth), k) ∈ declared (ops ++ news) := by
  obtain ⟨new, hd, hn⟩ := declared_added (ops := ops) only
  have hsub : ∀ t ∈ templatesOf ops, t ∈ templatesOf (ops ++ news) := by
    intro t ht
    rw [templatesOf, hd, List.filterMap_append]
    exact List.mem_append_left _ ht
  have hv' : HasVariables (ops ++ news) := by
    obtain ⟨t, ht, n, hn⟩ := hv
    exact ⟨t, hsub t ht, n, hn⟩
  cases hL with
  | static h => exact absurd hv h
  | @picked pick _ hp =>
  cases hL' with
  | static h => exact absurd hv' h
  | @picked pick' _ hp' =>
  by_cases hR : ∃ path, R.Path = SLASH :: path
  case neg =>
    refine ⟨fun route values => ⟨?_, ?_⟩, ?_⟩
    · rintro ⟨t, path, h, -⟩; exact absurd ⟨_, h⟩ hR
    · rintro ⟨t, path, h, -⟩; exact absurd ⟨_, h⟩ hR
    · rintro route values ⟨t, path, h, -⟩; exact absurd ⟨_, h⟩ hR
  obtain ⟨path, hpath⟩ := hR
  have away := other path hpath
  generalize hss : sections path = ss at away
  -- templates which were added have no instance here
  have noInst : ∀ p ∈ addedPaths ops news, ∀ t, meant p = some t → ∀ values, ¬ Instance t ss values := by
    intro p hp t ht values hi
    obtain ⟨i, s, h1, h2, -⟩ := away p hp t ht
    exact h2 (instance_at hi i s h1)
  have split : ∀ d, d ∈ declared (ops ++ news) ↔ d ∈ declared ops ∨ d ∈ new := by
    intro d; rw [hd, List.mem_append]
  have newAdded : ∀ d ∈ new, d.1.1 ∈ addedPaths ops news := by
    intro d hd
    rw [← hn]
    exact List.mem_map_of_mem (f := (·.1.1)) hd
  have memT : ∀ t, t ∈ templatesOf (ops ++ news) ↔ t ∈ templatesOf ops ∨ ∃ p ∈ addedPaths ops news, meant p = some t := by
    intro t
    rw [templatesOf, hd, List.filterMap_append, List.mem_append, ← hn]
    simp only [List.mem_filterMap, List.mem_map, templatesOf]
    constructor
    · rintro (h | ⟨d, h1, h2⟩)
      · exact .inl h
      · exact .inr ⟨_, ⟨d, h1, rfl⟩, h2⟩
    · rintro (h | ⟨_, ⟨d, h1, rfl⟩, h2⟩)
      · exact .inl h
      · exact .inr ⟨d, h1, h2⟩
  have pickIn : ∀ {t route}, pick t = some route → t ∈ templatesOf ops := by
    intro t route e
    obtain ⟨k1, k2⟩ := hp.sound t route e
    obtain ⟨d, hd, rfl⟩ := List.mem_map.1 k1
    exact List.mem_filterMap.2 ⟨d, hd, k2⟩
  have same : ∀ {t route route'}, pick t = some route → pick' t = some route' → route = route' := by
    intro t route route' e e'
    obtain ⟨k1, k2⟩ := hp.sound t route e
    obtain ⟨k1', k2'⟩ := hp'.sound t route' e'
    obtain ⟨d, hd, rfl⟩ := List.mem_map.1 k1
    obtain ⟨d', hd', rfl⟩ := List.mem_map.1 k1'
    exact ties.routes hv' d ((split d).2 (.inl hd)) d' hd' (k2.trans k2'.symm)
  have old : ∀ {t route values}, pick' t = some route → Instance t ss values → t ∈ templatesOf ops := by
    intro t route values e hi
    obtain ⟨k1, k2⟩ := hp'.sound t route e
    obtain ⟨d, hd', rfl⟩ := List.mem_map.1 k1
    rcases (split d).1 hd' with h | h
    · exact List.mem_filterMap.2 ⟨d, h, k2⟩
    · exact absurd hi (noInst _ (newAdded d h) t k2 _)
  have picks : ∀ {t route values}, Instance t ss values → (pick t = some route ↔ pick' t = some route) := by
    intro t route values hi
    constructor
    · intro e
      obtain ⟨route', e'⟩ := Option.isSome_iff_exists.1 (hp'.complete t (hsub t (pickIn e)))
      rw [e', same e e']
    · intro e'
      obtain ⟨route', e⟩ := Option.isSome_iff_exists.1 (hp.complete t (old e' hi))
      rw [e, same e e']
  have unsh : ∀ {t values}, Instance t ss values → (t ∈ templatesOf ops ∨ t = []) → (Unshadowed (templatesOf ops) t ss ↔ Unshadowed (templatesOf (ops ++ news)) t ss) := by
    intro t values hi ht
    constructor
    · intro hu i n s h1 h2 t' ht' hpre
      rcases (memT t').1 ht' with h | ⟨p, hp, hpt⟩
      · exact hu i n s h1 h2 t' h hpre
      · obtain ⟨j, s', k1, k2, k3⟩ := away p hp t' hpt
        rcases ht with ht | rfl
        · obtain ⟨rest, hrest⟩ := hpre
          have hi0 : i < t.length := by
            rw [List.getElem?_eq_some_iff] at h1
            exact h1.1
          have htake : (t.take i).length = i := by rw [List.length_take]; omega
          rcases Nat.lt_trichotomy j i with hj | rfl | hj
          · rw [← hrest, List.append_assoc, List.getElem?_append_left (by omega), List.getElem?_take, if_pos hj] at k1
            exact k2 (instance_at hi j s' k1)
          · rw [← hrest, List.append_assoc, List.getElem?_append_right (by omega), htake] at k1
            simp at k1
            subst k1
            exact k2 h2
          · exact k3 t ht i hj n h1
        · simp at h1
    · intro hu i n s h1 h2 t' ht'
      exact hu i n s h1 h2 t' (hsub t' ht')
  have rootNone : pick [] = none ↔ pick' [] = none := by
    constructor
    · intro e
      cases e' : pick' [] with
      | none => rfl
      | some route =>
        obtain ⟨k1, k2⟩ := hp'.sound [] route e'
        obtain ⟨d, hd', rfl⟩ := List.mem_map.1 k1
        rcases (split d).1 hd' with h | h
        · have := hp.complete [] (List.mem_filterMap.2 ⟨d, h, k2⟩)
          rw [e] at this; cases this
        · obtain ⟨i, s, k, -⟩ := away _ (newAdded d h) [] k2
          simp at k
    · intro e'
      cases e : pick [] with
      | none => rfl
      | some route =>
        have := hp'.complete [] (hsub _ (pickIn e))
        rw [e'] at this; cases this
  refine ⟨fun route values => ⟨?_, ?_⟩, ?_⟩
  · rintro ⟨t, path', h1, h2, h3, h4⟩
    rw [hpath] at h1
    cases h1
    rw [hss] at h3 h4
    refine ⟨t, path, hpath, ?_, by rw [hss]; exact h3, ?_⟩
    · rcases h2 with h2 | ⟨rfl, h2, rfl⟩
      · exact .inl ((picks h3).1 h2)
      · exact .inr ⟨rfl, rootNone.1 h2, rfl⟩
    · rw [hss]
      refine (unsh h3 ?_).1 h4
      rcases h2 with h2 | ⟨rfl, -⟩
      · exact .inl (pickIn h2)
      · exact .inr rfl
  · rintro ⟨t, path', h1, h2, h3, h4⟩
    rw [hpath] at h1
    cases h1
    rw [hss] at h3 h4
    refine ⟨t, path, hpath, ?_, by rw [hss]; exact h3, ?_⟩
    · rcases h2 with h2 | ⟨rfl, h2, rfl⟩
      · exact .inl ((picks h3).2 h2)
      · exact .inr ⟨rfl, rootNone.2 h2, rfl⟩
    · rw [hss]
      refine (unsh h3 ?_).2 h4
      rcases h2 with h2 | ⟨rfl, -⟩
      · exact .inl (old h2 h3)
      · exact .inr rfl
  · rintro route values ⟨t, path', h1, h2, h3, -⟩ meth k
    rw [hpath] at h1
    cases h1
    rw [hss] at h3
    rw [split]
    constructor
    · exact .inl
    · rintro (h | h)
      · exact h
      · have hm : meant route = some t := by
          rcases h2 with h2 | ⟨rfl, -, rfl⟩
          · exact (hp.sound t route h2).2
          · decide
        exact absurd h3 (noInst _ (newAdded _ h) t hm _)

/-! ### What the routers do -/

theorem served_state (made : make F text env ops = some rt) (reqs : List Request) (now : Runtime m) (served : serving F rt reqs = some now) : ∃ b, now = { rt with traceBuff := b } := by
  obtain ⟨L, hL, hdo⟩ := C104_every_router made
  have key : ∀ reqs b now, serving F { rt with traceBuff := b } reqs = some now → ∃ b', now = { rt with traceBuff := b' } := by
    intro reqs
    induction reqs with
    | nil => intro b now e; cases e; exact ⟨b, rfl⟩
    | cons req reqs ih =>
      intro b now e
      rw [serving] at e
      by_cases hx : HasVariables ops ∧ (arriving ops req).Path = []
      · rw [(hdo req b).1 hx.1 hx.2] at e; cases e
      · rcases (hdo req b).2 hx with ⟨-, _, _, _, -, -, h1⟩ | ⟨-, _, _, -, h1⟩
        · rw [h1] at e; exact ih _ _ e
        · rw [h1] at e; exact ih _ _ e
  have e0 : rt = { rt with traceBuff := [] } := by rw [← (built F text env ops rt made).buff]
  rw [e0] at served
  exact key reqs [] now served

private theorem error_added (made : make F text env ops = some rt) (made' : make F text env' (ops ++ news) = some rt') (only : OnlyRoutes news) (ties : ((catchers ops).map (·.1)).Nodup)
    (R : Request) (err : GoErr) (h : ¬ (R.Method = .TRACE ∧ err = .http Status.ErrMethodNotAllowed)) (b b' : Bytes) :
    ∃ x, Runtime.onError' F { rt with traceBuff := b } R err = (x, { rt with traceBuff := b }) ∧ Runtime.onError' F { rt' with traceBuff := b' } R err = (x, { rt' with traceBuff := b' }) := by
  have hb := built F text env ops rt made
  have hb' := built F text env' (ops ++ news) rt' made'
  obtain ⟨x, b0, k1, k2⟩ := onError_same R err (fun _ _ _ => by rw [catchers_added only]) (fun e _ => (handlerFor_added only e.Code).symm) ties hb hb' b
  refine ⟨(rt.onError' F R err).1, onError_buff F rt b R err h, ?_⟩
  rw [onError_buff F rt' b' R err h]
  rw [onError_buff F rt b R err h] at k1
  rw [onError_buff F rt' b R err h] at k2
  rw [(Prod.mk.inj k1).1, (Prod.mk.inj k2).1]

private theorem static_added (made : make F text env ops = some rt) (made' : make F text env' (ops ++ news) = some rt') (only : OnlyRoutes news) (static : ¬ HasVariables (ops ++ news))
    (ties : ((catchers ops).map (·.1)).Nodup) (req : Request) (notTrace : (mutated ops req).Method ≠ .TRACE) (other : (arriving ops req).Path ∉ addedPaths ops news) (b b' : Bytes) :
    ∃ x, Runtime.onRequest F { rt with traceBuff := b } req = some (x, { rt with traceBuff := b }) ∧ Runtime.onRequest F { rt' with traceBuff := b' } req = some (x, { rt' with traceBuff := b' }) := by
  have hb := built F text env ops rt made
  have hb' := built F text env' (ops ++ news) rt' made'
  obtain ⟨new, hd, hn⟩ := declared_added (ops := ops) only
  have isDynNone : ∀ {o : List (Op m)}, ¬ HasVariables o → ∀ d ∈ declared o, isDyn d.1.1 = false := by
    intro o ho d hd
    cases hx : isDyn d.1.1 with
    | false => rfl
    | true => exact absurd (hasVariables_iff.2 ⟨d, hd, hx⟩) ho
  have static0 : ¬ HasVariables ops := by
    rintro ⟨t, ht, n, hn⟩
    refine static ⟨t, ?_, n, hn⟩
    rw [templatesOf, hd, List.filterMap_append]
    exact List.mem_append_left _ ht
  obtain ⟨T, hT, hok⟩ := hb.static (isDynNone static0)
  obtain ⟨T', hT', hok'⟩ := hb'.static (isDynNone static)
  have e1 : Runtime.onRequest F { rt with traceBuff := b } req = Runtime.onRequest' F { rt with traceBuff := b } (arriving ops req) := by
    rw [Runtime.onRequest, ← arriving_eq hb]; rfl
  have e2 : Runtime.onRequest F { rt' with traceBuff := b' } req = Runtime.onRequest' F { rt' with traceBuff := b' } (arriving ops req) := by
    rw [Runtime.onRequest, ← arriving_added only, ← arriving_eq hb']; rfl
  have s : ∀ (x : Runtime m) T R, x.table = .static T → x.onRequest' F R = match T.get? R.Path with
      | none => some (x.onError' F R (.http Status.ErrNotFound))
      | some e => some (x.dispatch F R e) := by
    intro x T R h
    unfold Runtime.onRequest'
    rw [h]
    cases hq : T.get? R.Path <;> simp only [hq]
  rw [e1, e2, s { rt with traceBuff := b } T _ hT, s { rt' with traceBuff := b' } T' _ hT']
  have notTrace' : (arriving ops req).Method ≠ .TRACE := notTrace
  clear e1 e2 notTrace
  generalize arriving ops req = R at *
  have hmem : ∀ d : Decl m, d.1.1 = R.Path → (d ∈ declared (ops ++ news) ↔ d ∈ declared ops) := by
    intro d hdp
    rw [hd, List.mem_append]
    constructor
    · rintro (h | h)
      · exact h
      · refine absurd ?_ other
        rw [← hdp, ← hn]
        exact List.mem_map_of_mem (f := (·.1.1)) h
    · exact .inl
  have h1 := hok R.Path
  have h2 := hok' R.Path
  cases hg : T.get? R.Path with
  | none =>
    rw [hg] at h1
    cases hg' : T'.get? R.Path with
    | none =>
      obtain ⟨x, k1, k2⟩ := error_added made made' only ties R (.http Status.ErrNotFound) (fun h => absurd h.2 (by decide)) b b'
      exact ⟨x, congrArg some k1, congrArg some k2⟩
    | some e' =>
      rw [hg'] at h2
      obtain ⟨⟨d, hd', hdp⟩, -⟩ := h2
      exact absurd hdp (h1 d ((hmem d hdp).1 hd'))
  | some e =>
    rw [hg] at h1
    cases hg' : T'.get? R.Path with
    | none =>
      rw [hg'] at h2
      obtain ⟨⟨d, hd', hdp⟩, -⟩ := h1
      exact absurd hdp (h2 d ((hmem d hdp).2 hd'))
    | some e' =>
      rw [hg'] at h2
      obtain ⟨-, m1, a1⟩ := h1
      obtain ⟨-, m2, a2⟩ := h2
      have hm : e'.methodsMap = e.methodsMap := by
        funext mt
        cases hx : e.methodsMap mt with
        | some x => exact (m2 _ _).2 ((hmem _ rfl).2 ((m1 _ _).1 hx))
        | none =>
          cases hy : e'.methodsMap mt with
          | none => rfl
          | some y => rw [(m1 _ _).2 ((hmem _ rfl).1 ((m2 _ _).1 hy))] at hx; cases hx
      have ha : e'.allow = e.allow := by rw [a1, a2, hm]
      dsimp only
      unfold Runtime.dispatch
      rw [hm, ha]
      dsimp only
      split
      · obtain ⟨x, k1, k2⟩ := error_added made made' only ties { R with Env := { R.Env with AllowedMethods := e.allow } } (.http Status.ErrMethodNotAllowed) (fun h => notTrace' h.1) b b'
        exact ⟨x, congrArg some k1, congrArg some k2⟩
      · exact ⟨_, rfl, rfl⟩

/-- **C117 (part)**, without variables. Routes are added to a program. Then the router does exactly what it did before for all requests for other paths, whatever both have served. (Missing: TRACE, as the answers repeat earlier requests, `C42_trace_violation`; routes with variables, see
`C117_shadow_violation` and `C117_root_violation`, and the next theorem.) -/
theorem C117_static_partial (made : make F text env ops = some rt) (made' : make F text env' (ops ++ news) = some rt') (only : OnlyRoutes news) (static : ¬ HasVariables (ops ++ news))
    (ties : ((catchers ops).map (·.1)).Nodup) (reqs reqs' : List Request) (now now' : Runtime m) (served : serving F rt reqs = some now) (served' : serving F rt' reqs' = some now')
    (req : Request) (notTrace : (mutated ops req).Method ≠ .TRACE) (other : (arriving ops req).Path ∉ addedPaths ops news) :
    ∃ x, now.onRequest F req = some (x, now) ∧ now'.onRequest F req = some (x, now') := by
  obtain ⟨b, rfl⟩ := served_state made reqs now served
  obtain ⟨b', rfl⟩ := served_state made' reqs' now' served'
  exact static_added made made' only static ties req notTrace other b b'

/-- **C117 (part)**, with variables. Routes are added to a program which has routes with variables. Then the same handlers are called as before for all requests whose paths go another way than the new routes. (Missing: other requests, see `C117_shadow_violation`; programs whose first route with a variable is a new one, see `C117_root_violation`; TRACE.) -/
theorem C117_variables_partial (made : make F text env ops = some rt) (made' : make F text env' (ops ++ news) = some rt') (only : OnlyRoutes news) (variables : HasVariables ops)
    (ties : NoTies (ops ++ news)) (reqs reqs' : List Request) (now now' : Runtime m) (served : serving F rt reqs = some now) (served' : serving F rt' reqs' = some now')
    (req : Request) (notTrace : (mutated ops req).Method ≠ .TRACE) (path : Bytes) (there : (arriving ops req).Path = SLASH :: path)
    (other : ∀ p ∈ addedPaths ops news, ∀ t, meant p = some t → Elsewhere ops t (sections path)) :
    ∃ (k : Handler m) (r r' : Request), now.onRequest F req = some (k r, now) ∧ now'.onRequest F req = some (k r', now') ∧ (AlikeFound r r' ∨ AlikeLost r r') := by
  obtain ⟨b, rfl⟩ := served_state made reqs now served
  obtain ⟨b', rfl⟩ := served_state made' reqs' now' served'
  obtain ⟨L, hL, hdo⟩ := C104_every_router made
  obtain ⟨L', hL', hdo'⟩ := C104_every_router made'
  have hR : (arriving ops req).Method ≠ .TRACE := notTrace
  have hne : ∀ o : List (Op m), ¬ (HasVariables o ∧ (arriving ops req).Path = []) := by
    rintro o ⟨-, h⟩; rw [there] at h; cases h
  obtain ⟨hf, hdec⟩ := found_added only variables ties hL hL' (arriving ops req) (by
    intro path' hp p hp' t ht
    rw [there] at hp
    cases hp
    exact other p hp' t ht)
  rcases (hdo req b).2 (hne _) with ⟨e, -⟩ | ⟨-, k, r, h1, h2⟩
  · exact absurd e.1 hR
  rcases (hdo' req b').2 (by rw [arriving_added only]; exact hne _) with ⟨e, -⟩ | ⟨-, k', r', g1, g2⟩
  · rw [arriving_added only] at e; exact absurd e.1 hR
  rw [arriving_added only] at g1
  generalize arriving ops req = R at *
  let M : Lookup := ⟨L.found, fun _ _ => True⟩
  have hms : ∀ {route values}, L.found R route values → methodsOf ops route = methodsOf (ops ++ news) route := fun h => methodsOf_added (hdec _ _ h)
  have c1 : Chosen F text ops M R k r := by
    cases h1 with
    | route a1 a2 a3 => exact .route (L := M) a1 a2 a3
    | head a1 a2 a3 a4 a5 => exact .head (L := M) a1 a2 a3 a4 a5
    | notAllowed a1 a2 a3 a4 a5 => exact .notAllowed (L := M) a1 a2 a3 a4 a5
    | caught a1 a2 a3 a4 a5 => exact .caught (L := M) a1 trivial a3 a4 a5
    | notFound a1 a2 a3 a4 => exact .notFound (L := M) a1 trivial a3 a4
  have c2 : Chosen F text ops M R k' r' := by
    cases g1 with
    | route a1 a2 a3 =>
      have b1 := (hf _ _).2 a1
      exact .route (L := M) b1 (by rwa [hms b1]) ((hdec _ _ b1 _ _).2 a3)
    | head a1 a2 a3 a4 a5 =>
      have b1 := (hf _ _).2 a1
      exact .head (L := M) b1 (by rwa [hms b1]) a3 (by rwa [hms b1]) ((hdec _ _ b1 _ _).2 a5)
    | notAllowed a1 a2 a3 a4 a5 =>
      have b1 := (hf _ _).2 a1
      exact .notAllowed (L := M) b1 (by rwa [hms b1]) (by rwa [hms b1]) (by rwa [hms b1]) (by rwa [← handlerFor_added only])
    | caught a1 a2 a3 a4 a5 =>
      rw [catchers_added only] at a3 a5
      exact .caught (L := M) (fun route values hx => a1 route values ((hf _ _).1 hx)) trivial a3 a4 a5
    | notFound a1 a2 a3 a4 =>
      rw [catchers_added only] at a3
      exact .notFound (L := M) (fun route values hx => a1 route values ((hf _ _).1 hx)) trivial a3 (by rwa [← handlerFor_added only])
  obtain ⟨rfl, hr⟩ := chosen_one (L := M) (built F text env ops rt made).nodup (by rw [← catchers_added only]; exact ties.catchers) (fun a b c d => C104_one_route made L hL R a b c d) c1 c2
  exact ⟨k, r, r', h2, g2, hr.imp (·.2) (·.2)⟩

/-- **C117 (part).** Adding routes, with or without variables, changes nothing about errors. (Missing: TRACE.) -/
theorem C117_errors_partial (made : make F text env ops = some rt) (made' : make F text env' (ops ++ news) = some rt') (only : OnlyRoutes news)
    (ties : ((catchers ops).map (·.1)).Nodup) (reqs reqs' : List Request) (now now' : Runtime m) (served : serving F rt reqs = some now) (served' : serving F rt' reqs' = some now')
    (req : Request) (notTrace : (mutated ops req).Method ≠ .TRACE) (err : GoErr) :
    ∃ x, now.onError F req err = (x, now) ∧ now'.onError F req err = (x, now') := by
  obtain ⟨b, rfl⟩ := served_state made reqs now served
  obtain ⟨b', rfl⟩ := served_state made' reqs' now' served'
  obtain ⟨x, k1, k2⟩ := error_added made made' only ties (mutated ops req) err (fun h => notTrace h.1) b b'
  have m1 : Runtime.runMutators { rt with traceBuff := b } req = mutated ops req := runMutators_eq (built F text env ops rt made) req
  have m2 : Runtime.runMutators { rt' with traceBuff := b' } req = mutated ops req := by
    rw [← mutated_added only]; exact runMutators_eq (built F text env' (ops ++ news) rt' made') req
  refine ⟨x, ?_, ?_⟩
  · rw [Runtime.onError, m1, k1]
  · rw [Runtime.onError, m2, k2]

end

/-! ### On the wire -/

section
open Serve
variable {σ : Type} {text : GoErr → Bytes} {env env' : Env Act} {ops news : List (Op Act)} {rt rt' : Runtime Act}

/-- **C117 (part)**, on the wire, without variables. Routes are added to the program of a server. A client whose requests are for other paths (and do not have the method TRACE) is served exactly as before. -/
theorem C117_wire_partial (E : Setup σ (Runtime Act)) (router : E.router = Router.impl E.F .panic) (made : make E.F text env ops = some rt) (made' : make E.F text env' (ops ++ news) = some rt')
    (only : OnlyRoutes news) (static : ¬ HasVariables (ops ++ news)) (ties : ((catchers ops).map (·.1)).Nodup) (cfg : Config) (enc : EncToken) (remote : Bytes) (cl : Client)
    (others : ∀ v ∈ (serve E (newConn E.P cfg enc remote rt cl)).1.visits, AboutOthers ops news v) :
    (serve E (newConn E.P cfg enc remote rt' cl)).1.client = (serve E (newConn E.P cfg enc remote rt cl)).1.client ∧
    (serve E (newConn E.P cfg enc remote rt' cl)).1.visits = (serve E (newConn E.P cfg enc remote rt cl)).1.visits ∧
    (serve E (newConn E.P cfg enc remote rt' cl)).2 = (serve E (newConn E.P cfg enc remote rt cl)).2 := by
  have keeps : ∀ {o : List (Op Act)} {env : Env Act} {rt : Runtime Act}, make E.F text env o = some rt → ∀ b req, ∃ b', (E.router.onRequest { rt with traceBuff := b } req).2 = { rt with traceBuff := b' } := by
    intro o env rt made b req
    obtain ⟨L, hL, hdo⟩ := C104_every_router made
    rw [router]
    show ∃ b', ((Runtime.onRequest E.F { rt with traceBuff := b } req).getD _).2 = _
    by_cases hx : HasVariables o ∧ (arriving o req).Path = []
    · rw [(hdo req b).1 hx.1 hx.2]; exact ⟨b, rfl⟩
    · rcases (hdo req b).2 hx with ⟨-, _, _, _, -, -, h1⟩ | ⟨-, _, _, -, h1⟩
      · rw [h1]; exact ⟨_, rfl⟩
      · rw [h1]; exact ⟨_, rfl⟩
  have keepsErr : ∀ (rt : Runtime Act) b req err, ∃ b', (E.router.onError { rt with traceBuff := b } req err).2 = { rt with traceBuff := b' } := by
    intro rt b req err
    rw [router]
    show ∃ b', (Runtime.onError' E.F { rt with traceBuff := b } (Runtime.runMutators { rt with traceBuff := b } req) err).2 = _
    by_cases ht : (Runtime.runMutators { rt with traceBuff := b } req).Method = .TRACE ∧ err = .http Status.ErrMethodNotAllowed
    · refine ⟨renderHTTPRequest (Runtime.runMutators { rt with traceBuff := b } req) b, ?_⟩
      generalize Runtime.runMutators { rt with traceBuff := b } req = R at ht
      unfold Runtime.onError'
      rw [if_pos ht]
    · rw [onError_buff _ _ _ _ _ ht]; exact ⟨b, rfl⟩
  have ag : Agrees E E.router (fun x y => ∃ b b', x = { rt' with traceBuff := b' } ∧ y = { rt with traceBuff := b }) (AboutOthers (σ := σ) ops news) := by
    constructor
    · rintro x y req ⟨b, b', rfl, rfl⟩ ⟨w, a, l, hq⟩
      obtain ⟨x, k1, k2⟩ := static_added made made' only static ties req hq.2 hq.1 b b'
      rw [router]
      show ((Runtime.onRequest _ _ _).getD _).1 = ((Runtime.onRequest _ _ _).getD _).1
      rw [k1, k2]; rfl
    · rintro x y req e ⟨b, b', rfl, rfl⟩ ⟨a, l, hq⟩
      obtain ⟨x, k1, k2⟩ := error_added made made' only ties (mutated ops req) e (fun h => hq h.1) b b'
      have m1 : Runtime.runMutators { rt with traceBuff := b } req = mutated ops req := runMutators_eq (built _ text env ops rt made) req
      have m2 : Runtime.runMutators { rt' with traceBuff := b' } req = mutated ops req := by
        rw [← mutated_added only]; exact runMutators_eq (built _ text env' (ops ++ news) rt' made') req
      rw [router]
      show (Runtime.onError' _ _ _ _).1 = (Runtime.onError' _ _ _ _).1
      rw [m1, m2, k1, k2]
    · rintro x y req ⟨b, b', rfl, rfl⟩ -
      obtain ⟨c, hc⟩ := keeps made b req
      obtain ⟨c', hc'⟩ := keeps made' b' req
      exact ⟨c, c', hc', hc⟩
    · rintro x y req e ⟨b, b', rfl, rfl⟩ -
      obtain ⟨c, hc⟩ := keepsErr rt b req e
      obtain ⟨c', hc'⟩ := keepsErr rt' b' req e
      exact ⟨c, c', hc', hc⟩
  obtain ⟨k1, k2⟩ := serve_like ag (a := newConn E.P cfg enc remote rt' cl) (b := newConn E.P cfg enc remote rt cl) ⟨⟨rt.traceBuff, rt'.traceBuff, rfl, rfl⟩, rfl⟩ others
  refine ⟨?_, ?_, k1⟩
  · have := congrArg (fun c : Conn σ (Runtime Act) => c.client) k2.same
    exact this
  · have := congrArg (fun c : Conn σ (Runtime Act) => c.visits) k2.same
    exact this

end
/-! ### Violations -/

private def coded (code : Nat) : Handler Id := fun r => pure (Fields.new.code code, r)

private def posts : List (Op Id) := [.route 0 .GET b!"/users/{id}/posts" (coded 201) []]

private def admin : List (Op Id) := [.route 0 .GET b!"/users/admin" (coded 202) []]

/-- **C117, violated.** Adding a route takes requests away from another one, although they are not for the new route: with a new route `/users/admin`, the request for `/users/admin/posts`, which the route `/users/{id}/posts` used to answer, is answered by 404. -/
theorem C117_shadow_violation :
    ∃ (ops news : List (Op Id)) (rt rt' : Runtime Id) (req : Request),
      make sampleFold (fun _ => []) sampleEnv ops = some rt ∧ make sampleFold (fun _ => []) sampleEnv (ops ++ news) = some rt' ∧ OnlyRoutes news ∧ addedPaths ops news = [b!"/users/admin"] ∧ req.Path = b!"/users/admin/posts" ∧
      (rt.onRequest sampleFold req).map (fun x => (Id.run x.1).1.Code) = some 201 ∧
      (rt'.onRequest sampleFold req).map (fun x => (Id.run x.1).1.Code) = some 404 := by
  have h : ∃ rt, make sampleFold (fun _ => []) sampleEnv posts = some rt := by
    rw [← Option.isSome_iff_exists]; decide +kernel
  have h' : ∃ rt, make sampleFold (fun _ => []) sampleEnv (posts ++ admin) = some rt := by
    rw [← Option.isSome_iff_exists]; decide +kernel
  obtain ⟨rt, h⟩ := h
  obtain ⟨rt', h'⟩ := h'
  refine ⟨posts, admin, rt, rt', { Method := .GET, Path := b!"/users/admin/posts" }, h, h', ?_, by decide +kernel, rfl, ?_, ?_⟩
  · intro op ho
    simp only [admin, List.mem_cons, List.not_mem_nil, or_false] at ho
    exact ⟨_, _, _, _, _, ho⟩
  · have : ((make sampleFold (fun _ => []) sampleEnv posts).bind (fun rt => rt.onRequest sampleFold { Method := .GET, Path := b!"/users/admin/posts" })).map (fun x => (Id.run x.1).1.Code) = some 201 := by
      decide +kernel
    rw [h] at this
    exact this
  · have : ((make sampleFold (fun _ => []) sampleEnv (posts ++ admin)).bind (fun rt => rt.onRequest sampleFold { Method := .GET, Path := b!"/users/admin/posts" })).map (fun x => (Id.run x.1).1.Code) = some 404 := by
      decide +kernel
    rw [h'] at this
    exact this

private def caughtAll : List (Op Id) := [.route 0 .GET b!"/about" (coded 201) [], .catch 0 b!"/" (coded 203) []]

private def users : List (Op Id) := [.route 0 .GET b!"/users/{id}" (coded 202) []]

/-- **C117, violated.** The first route with a variable takes the root away from a catcher: `GET /`, which the catcher for everything used to answer, is answered by 405. -/
theorem C117_root_violation :
    ∃ (ops news : List (Op Id)) (rt rt' : Runtime Id) (req : Request),
      make sampleFold (fun _ => []) sampleEnv ops = some rt ∧ make sampleFold (fun _ => []) sampleEnv (ops ++ news) = some rt' ∧ OnlyRoutes news ∧ addedPaths ops news = [b!"/users/{id}"] ∧ req.Path = b!"/" ∧
      (rt.onRequest sampleFold req).map (fun x => (Id.run x.1).1.Code) = some 203 ∧
      (rt'.onRequest sampleFold req).map (fun x => (Id.run x.1).1.Code) = some 405 := by
  have h : ∃ rt, make sampleFold (fun _ => []) sampleEnv caughtAll = some rt := by
    rw [← Option.isSome_iff_exists]; decide +kernel
  have h' : ∃ rt, make sampleFold (fun _ => []) sampleEnv (caughtAll ++ users) = some rt := by
    rw [← Option.isSome_iff_exists]; decide +kernel
  obtain ⟨rt, h⟩ := h
  obtain ⟨rt', h'⟩ := h'
  refine ⟨caughtAll, users, rt, rt', { Method := .GET, Path := b!"/" }, h, h', ?_, by decide +kernel, rfl, ?_, ?_⟩
  · intro op ho
    simp only [users, List.mem_cons, List.not_mem_nil, or_false] at ho
    exact ⟨_, _, _, _, _, ho⟩
  · have : ((make sampleFold (fun _ => []) sampleEnv caughtAll).bind (fun rt => rt.onRequest sampleFold { Method := .GET, Path := b!"/" })).map (fun x => (Id.run x.1).1.Code) = some 203 := by
      decide +kernel
    rw [h] at this
    exact this
  · have : ((make sampleFold (fun _ => []) sampleEnv (caughtAll ++ users)).bind (fun rt => rt.onRequest sampleFold { Method := .GET, Path := b!"/" })).map (fun x => (Id.run x.1).1.Code) = some 405 := by
      decide +kernel
    rw [h'] at this
    exact this

/-! ### The hypotheses can be met -/

private def shop : List (Op Id) := [.group 0 b!"/shop", .route 1 .GET b!"/cart" (coded 201) [], .catch 0 b!"/old" (coded 203) []]

private def pay : List (Op Id) := [.route 1 .POST b!"/pay" (coded 202) []]

/-- Without variables: the hypotheses of `C117_static_partial` and `C117_errors_partial`, and answers before and after. -/
example : (∃ rt, make sampleFold (fun _ => []) sampleEnv shop = some rt) ∧ (∃ rt, make sampleFold (fun _ => []) sampleEnv (shop ++ pay) = some rt) ∧ OnlyRoutes pay ∧ ¬ HasVariables (shop ++ pay) ∧
    ((catchers shop).map (·.1)).Nodup ∧ addedPaths shop pay = [b!"/shop/pay"] ∧ (arriving shop { Method := .GET, Path := b!"/shop/cart/" }).Path = b!"/shop/cart" ∧
    [b!"/shop/cart/", b!"/old/x", b!"/else"].map (fun path => [shop, shop ++ pay].map (fun ops =>
      ((make sampleFold (fun _ => []) sampleEnv ops).bind (fun rt => rt.onRequest sampleFold { Method := .GET, Path := path })).map (fun x => (Id.run x.1).1.Code))) =
      [[some 201, some 201], [some 203, some 203], [some 404, some 404]] := by
  refine ⟨by rw [← Option.isSome_iff_exists]; decide +kernel, by rw [← Option.isSome_iff_exists]; decide +kernel, ?_, ?_, ?_, by decide +kernel, by decide +kernel, by decide +kernel⟩
  · intro op ho
    simp only [pay, List.mem_cons, List.not_mem_nil, or_false] at ho
    exact ⟨_, _, _, _, _, ho⟩
  · have e : templatesOf (shop ++ pay) = [[.lit b!"shop", .lit b!"cart"], [.lit b!"shop", .lit b!"pay"]] := by decide +kernel
    rintro ⟨t, ht, n, hn⟩
    rw [e] at ht
    simp only [List.mem_cons, List.not_mem_nil, or_false] at ht
    rcases ht with rfl | rfl <;> simp at hn
  · have e : (catchers shop).map (·.1) = [b!"/old"] := by decide +kernel
    rw [e]; simp

/-- With variables: a route is added to `posts`, and a request goes another way. -/
example : HasVariables posts ∧ NoTies (posts ++ [.route 0 .GET b!"/groups/{id}" (coded 202) []]) ∧
    (∃ rt, make sampleFold (fun _ => []) sampleEnv (posts ++ [.route 0 .GET b!"/groups/{id}" (coded 202) []]) = some rt) ∧
    (∀ p ∈ addedPaths posts [.route 0 .GET b!"/groups/{id}" (coded 202) []], ∀ t, meant p = some t → Elsewhere posts t (sections b!"users/5/posts")) := by
  have e : templatesOf posts = [[.lit b!"users", .var b!"id", .lit b!"posts"]] := by decide +kernel
  have d : (declared (posts ++ [.route 0 .GET b!"/groups/{id}" (coded 202) []])).map (·.1.1) = [b!"/users/{id}/posts", b!"/groups/{id}"] := by decide +kernel
  have c : (catchers (posts ++ [.route 0 .GET b!"/groups/{id}" (coded 202) []])).map (·.1) = [] := by decide +kernel
  have a : addedPaths posts [.route 0 .GET b!"/groups/{id}" (coded 202) []] = [b!"/groups/{id}"] := by decide +kernel
  refine ⟨⟨_, by rw [e]; exact List.mem_cons_self .., b!"id", by simp⟩, ⟨by rw [c]; simp, ?_⟩, by rw [← Option.isSome_iff_exists]; decide +kernel, ?_⟩
  · intro _ x hx y hy h
    have hx' := List.mem_map_of_mem (f := (·.1.1)) hx
    have hy' := List.mem_map_of_mem (f := (·.1.1)) hy
    rw [d] at hx' hy'
    have all : ∀ p ∈ [b!"/users/{id}/posts", b!"/groups/{id}"], ∀ q ∈ [b!"/users/{id}/posts", b!"/groups/{id}"], meant p = meant q → p = q := by decide +kernel
    exact all _ hx' _ hy' h
  · intro p hp t ht
    rw [a] at hp
    simp only [List.mem_cons, List.not_mem_nil, or_false] at hp
    subst hp
    have : meant b!"/groups/{id}" = some [.lit b!"groups", .var b!"id"] := by decide +kernel
    rw [this] at ht
    cases ht
    exact ⟨0, b!"groups", rfl, by decide +kernel, fun _ _ j hj => absurd hj (Nat.not_lt_zero _)⟩

end Indigo.Props
