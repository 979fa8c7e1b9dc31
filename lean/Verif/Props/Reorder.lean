/-
C116: the order of registrations.
-/
import Verif.Props.EveryRouter
import Verif.Props.Program
import Verif.Proofs.Concurrent
import Verif.Spec.Reorder

namespace Indigo.Props
open Indigo.Router Indigo.Spec Indigo.Spec.Router Indigo.Spec.Radix

section
variable {m : Type → Type} {ops ops' : List (Op m)}

private theorem places_eq (h : Reordered ops ops') : places ops = places ops' := by
  have key : ∀ l : List (Op m), places l = places (l.filter makesGroup) := by
    intro l
    rw [places, places, List.foldl_filter]
    congr 1
    funext ps op
    cases op <;> simp [makesGroup]
  rw [key ops, key ops', h.groups]

private theorem uses_eq (h : Reordered ops ops') (r : Nat) : uses ops r = uses ops' r := by
  have key : ∀ l : List (Op m), uses l r = uses (l.filter (addsMiddlewares r)) r := by
    intro l
    induction l with
    | nil => rfl
    | cons op l ih =>
      rw [uses] at *
      rw [List.flatMap_cons, ih, List.filter_cons]
      cases op <;> simp only [addsMiddlewares, Bool.false_eq_true, if_false, List.nil_append]
      · rename_i r' mws
        by_cases e : r' = r
        · simp [e, uses]
        · simp [e, uses]
      all_goals rfl
  rw [key ops, key ops', h.middlewares r]

private theorem prefixOf_eq (h : Reordered ops ops') (r : Nat) : prefixOf ops r = prefixOf ops' r := by
  rw [prefixOf, prefixOf, places_eq h]

private theorem around_eq (h : Reordered ops ops') (r : Nat) : around ops r = around ops' r := by
  rw [around, around, places_eq h]
  congr 1
  funext i
  exact uses_eq h i

private theorem flatMap_filter {α β : Type} (p : α → Bool) (f : α → List β) (hf : ∀ a, p a = false → f a = []) (l : List α) : l.flatMap f = (l.filter p).flatMap f := by
  induction l with
  | nil => rfl
  | cons a l ih =>
    rw [List.flatMap_cons, ih, List.filter_cons]
    cases hp : p a with
    | true => simp
    | false => simp [hf a hp]

private theorem declared_perm (h : Reordered ops ops') : (declared ops).Perm (declared ops') := by
  rw [declared, declared, flatMap_filter registers _ ?_ ops, flatMap_filter registers _ ?_ ops']
  · rw [show prefixOf ops = prefixOf ops' from funext (prefixOf_eq h), show around ops = around ops' from funext (around_eq h)]
    exact h.others.flatMap_right _
  all_goals
    intro op hop
    cases op <;> first | rfl | cases hop

private theorem catchers_perm (h : Reordered ops ops') : (catchers ops).Perm (catchers ops') := by
  rw [catchers, catchers, flatMap_filter registers _ ?_ ops, flatMap_filter registers _ ?_ ops']
  · rw [show prefixOf ops = prefixOf ops' from funext (prefixOf_eq h), show around ops = around ops' from funext (around_eq h)]
    exact h.others.flatMap_right _
  all_goals
    intro op hop
    cases op <;> first | rfl | cases hop

private theorem ownCatchers_perm (h : Reordered ops ops') (r : Nat) : (ownCatcherPaths ops r).Perm (ownCatcherPaths ops' r) := by
  rw [ownCatcherPaths, ownCatcherPaths, flatMap_filter registers _ ?_ ops, flatMap_filter registers _ ?_ ops']
  · rw [prefixOf_eq h]
    exact h.others.flatMap_right _
  all_goals
    intro op hop
    cases op <;> first | rfl | cases hop

private theorem errorHandlers_eq (h : Reordered ops ops') (d : List (Status.Code × Handler m)) : errorHandlers d ops = errorHandlers d ops' := by
  rw [errorHandlers, errorHandlers, flatMap_filter handlesErrors _ ?_ ops, flatMap_filter handlesErrors _ ?_ ops', h.errors, uses_eq h]
  all_goals
    intro op hop
    cases op <;> first | rfl | cases hop

private theorem ownMutators_eq (h : Reordered ops ops') (r : Nat) : ownMutators ops r = ownMutators ops' r := by
  rw [ownMutators, ownMutators, flatMap_filter (changesRequests r) _ ?_ ops, flatMap_filter (changesRequests r) _ ?_ ops', h.mutators r, prefixOf_eq h]
  all_goals
    intro op hop
    cases op <;> first | rfl | simp_all [changesRequests]

private theorem mutated_eq (h : Reordered ops ops') (req : Request) : mutated ops req = mutated ops' req := by
  have key : ∀ fuel r, mutatorsIn ops fuel r = mutatorsIn ops' fuel r := by
    intro fuel
    induction fuel with
    | zero => intro r; rfl
    | succ fuel ih =>
      intro r
      have hk : kids ops r = kids ops' r := by rw [kids, kids, places_eq h]
      rw [mutatorsIn, mutatorsIn, ownMutators_eq h, hk]
      congr 2
      funext r
      exact ih r
  rw [mutated, mutated, key, places_eq h]

private theorem arriving_reordered (h : Reordered ops ops') (req : Request) : arriving ops req = arriving ops' req := by
  rw [arriving, arriving, mutated_eq h]

private theorem methodsOf_reordered (h : Reordered ops ops') (p : Bytes) : methodsOf ops p = methodsOf ops' p := by
  rw [methodsOf, methodsOf]
  congr 1
  funext meth
  rw [Bool.eq_iff_iff, List.any_eq_true, List.any_eq_true]
  simp only [(declared_perm h).mem_iff]

private theorem templatesOf_mem (h : Reordered ops ops') (t : Tmpl) : t ∈ templatesOf ops ↔ t ∈ templatesOf ops' :=
  ((declared_perm h).filterMap _).mem_iff

private theorem hasVariables_reordered (h : Reordered ops ops') : HasVariables ops ↔ HasVariables ops' := by
  simp only [HasVariables, templatesOf_mem h]

variable [Monad m] {F : Fold} {text : GoErr → Bytes} {env env' : Env m} {rt rt' : Runtime m}

/-- **C116.** If a program can be built, so can every one which makes the same registrations in another order. -/
theorem C116_accepted (made : make F text env ops = some rt) (h : Reordered ops ops') : ∃ rt', make F text env' ops' = some rt' := by
  obtain ⟨-, h2, h3, h4, h5⟩ := (C104_accepted F text env ops).1 ⟨rt, made⟩
  refine (C104_accepted F text env' ops').2 ⟨h.before, ?_, ?_, ?_, ?_⟩
  · exact fun d hd => h2 d ((declared_perm h).mem_iff.2 hd)
  · exact ((declared_perm h).map _).nodup_iff.1 h3
  · exact fun r => (ownCatchers_perm h r).nodup_iff.1 (h4 r)
  · intro hv t ht t' ht'
    exact h5 ((hasVariables_reordered h).2 hv) t ((templatesOf_mem h t).2 ht) t' ((templatesOf_mem h t').2 ht')

private theorem handlerFor_reordered (h : Reordered ops ops') (code : Status.Code) : handlerFor F text ops code = handlerFor F text ops' code := by
  rw [handlerFor, handlerFor, errorHandlers_eq h]

private theorem retrieve_eq (hb : Built F text ops rt) (code : Status.Code) : rt.retrieveErrorHandler code = handlerFor F text ops code := by
  rw [Runtime.retrieveErrorHandler, handlerFor, ← hb.errs, ← hb.errs]
  cases rt.errHandlers.get? code <;> rfl

omit [Monad m] in
theorem nodup_fst {α β : Type} {l : List (α × β)} (h : (l.map (·.1)).Nodup) {a : α} {b b' : β} (hb : (a, b) ∈ l) (hb' : (a, b') ∈ l) : b = b' := by
  induction l with
  | nil => cases hb
  | cons x l ih =>
    rw [List.map_cons, List.nodup_cons] at h
    rcases List.mem_cons.1 hb with e | e <;> rcases List.mem_cons.1 hb' with e' | e'
    · rw [← e] at e'; cases e'; rfl
    · subst e; exact absurd (List.mem_map_of_mem (f := (·.1)) e') h.1
    · subst e'; exact absurd (List.mem_map_of_mem (f := (·.1)) e) h.1
    · exact ih h.2 e e'

theorem notFound_same (hes : handlerFor F text ops Status.NotFound = handlerFor F text ops' Status.NotFound) (ties : ((catchers ops).map (·.1)).Nodup) (hb : Built F text ops rt) (hb' : Built F text ops' rt') (R : Request)
    (hc : ∀ c : Bytes × Handler m, c.1 <+: R.Path → (c ∈ catchers ops ↔ c ∈ catchers ops')) :
    ∃ k : Handler m, (∀ p, (rt.onError' F { R with Params := p } (.http Status.ErrNotFound)).1 = k { R with Params := p }) ∧
      ∀ p, (rt'.onError' F { R with Params := p } (.http Status.ErrNotFound)).1 = k { R with Params := p } := by
  by_cases hex : ∃ c ∈ catchers ops, c.1 <+: R.Path
  · have key : ∀ p, ∃ q k, (q, k) ∈ catchers ops ∧ q <+: R.Path ∧ (∀ c ∈ catchers ops, c.1 <+: R.Path → c.1.length ≤ q.length) ∧
        (rt.onError' F { R with Params := p } (.http Status.ErrNotFound)).1 = k { R with Params := p } := by
      intro p
      rcases notFound_outcome hb { R with Params := p } with ⟨q, k, k1, k2, k3, k4⟩ | ⟨k1, -⟩
      · exact ⟨q, k, k1, k2, k3, by rw [k4]⟩
      · obtain ⟨c, c1, c2⟩ := hex; exact absurd c2 (k1 c c1)
    have key' : ∀ p, ∃ q k, (q, k) ∈ catchers ops ∧ q <+: R.Path ∧ (∀ c ∈ catchers ops, c.1 <+: R.Path → c.1.length ≤ q.length) ∧
        (rt'.onError' F { R with Params := p } (.http Status.ErrNotFound)).1 = k { R with Params := p } := by
      intro p
      rcases notFound_outcome hb' { R with Params := p } with ⟨q, k, k1, k2, k3, k4⟩ | ⟨k1, -⟩
      · exact ⟨q, k, (hc _ k2).2 k1, k2, fun c c1 c2 => k3 c ((hc c c2).1 c1) c2, by rw [k4]⟩
      · obtain ⟨c, c1, c2⟩ := hex; exact absurd c2 (k1 c ((hc c c2).1 c1))
    obtain ⟨q, k, k1, k2, k3, -⟩ := key R.Params
    have one : ∀ q' k', (q', k') ∈ catchers ops → q' <+: R.Path → (∀ c ∈ catchers ops, c.1 <+: R.Path → c.1.length ≤ q'.length) → k' = k := by
      intro q' k' h1 h2 h3
      have e : q' = q := (List.prefix_of_prefix_length_le h2 k2 (k3 _ h1 h2)).eq_of_length (Nat.le_antisymm (k3 _ h1 h2) (h3 _ k1 k2))
      subst e
      exact nodup_fst ties h1 k1
    refine ⟨k, fun p => ?_, fun p => ?_⟩
    · obtain ⟨q', k', h1, h2, h3, h4⟩ := key p
      rw [h4, one _ _ h1 h2 h3]
    · obtain ⟨q', k', h1, h2, h3, h4⟩ := key' p
      rw [h4, one _ _ h1 h2 h3]
  · obtain ⟨k, hk⟩ := C41_always_one F text ops Status.NotFound
    refine ⟨fun r => k (failing r (.http Status.ErrNotFound)), fun p => ?_, fun p => ?_⟩
    · rcases notFound_outcome hb { R with Params := p } with ⟨q, k', k1, k2, -⟩ | ⟨-, k', k1, k2⟩
      · exact absurd ⟨_, k1, k2⟩ hex
      · rw [k2]
        rw [hk] at k1
        cases k1; rfl
    · rcases notFound_outcome hb' { R with Params := p } with ⟨q, k', k1, k2, -⟩ | ⟨-, k', k1, k2⟩
      · exact absurd ⟨_, (hc _ k2).2 k1, k2⟩ hex
      · rw [k2]
        rw [← hes, hk] at k1
        cases k1; rfl

theorem onError_same (R : Request) (err : GoErr) (hcs : err = .http Status.ErrNotFound → ∀ c : Bytes × Handler m, c.1 <+: R.Path → (c ∈ catchers ops ↔ c ∈ catchers ops')) (hes : ∀ e, err = .http e → handlerFor F text ops e.Code = handlerFor F text ops' e.Code)
    (ties : ((catchers ops).map (·.1)).Nodup) (hb : Built F text ops rt) (hb' : Built F text ops' rt') (b : Bytes) :
    ∃ x b', Runtime.onError' F { rt with traceBuff := b } R err = (x, { rt with traceBuff := b' }) ∧
      Runtime.onError' F { rt' with traceBuff := b } R err = (x, { rt' with traceBuff := b' }) := by
  by_cases ht : R.Method = .TRACE ∧ err = .http Status.ErrMethodNotAllowed
  · refine ⟨pure (traceResponse F Fields.new (renderHTTPRequest R b), R), renderHTTPRequest R b, ?_, ?_⟩
    all_goals
      unfold Runtime.onError'
      rw [if_pos ht]
  · refine ⟨(rt.onError' F R err).1, b, onError_buff F rt b R err ht, ?_⟩
    rw [onError_buff F rt' b R err ht]
    congr 1
    by_cases e : err = .http Status.ErrNotFound
    · subst e
      obtain ⟨k, k1, k2⟩ := notFound_same (hes _ rfl) ties hb hb' R (hcs rfl)
      exact (k2 R.Params).trans (k1 R.Params).symm
    · unfold Runtime.onError'
      rw [if_neg ht, if_neg ht]
      simp only [if_neg e]
      cases err with
      | http x =>
        simp only [retrieve_eq hb, retrieve_eq hb', ← hes x rfl]
        cases handlerFor F text ops x.Code <;> rfl
      | eof => rfl
      | other n => rfl

theorem runMutators_eq (hb : Built F text ops rt) (req : Request) : rt.runMutators req = mutated ops req := by
  rw [mutated, Runtime.runMutators, hb.mutators]

private theorem onRequest_same (h : Reordered ops ops') (ties : ((catchers ops).map (·.1)).Nodup) (static : ¬ HasVariables ops) (hb : Built F text ops rt) (hb' : Built F text ops' rt')
    (req : Request) (b : Bytes) :
    ∃ x b', Runtime.onRequest F { rt with traceBuff := b } req = some (x, { rt with traceBuff := b' }) ∧
      Runtime.onRequest F { rt' with traceBuff := b } req = some (x, { rt' with traceBuff := b' }) := by
  have isDynNone : ∀ {o : List (Op m)}, ¬ HasVariables o → ∀ d ∈ declared o, isDyn d.1.1 = false := by
    intro o ho d hd
    cases hx : isDyn d.1.1 with
    | false => rfl
    | true => exact absurd (hasVariables_iff.2 ⟨d, hd, hx⟩) ho
  obtain ⟨T, hT, hok⟩ := hb.static (isDynNone static)
  obtain ⟨T', hT', hok'⟩ := hb'.static (isDynNone (fun hv => static ((hasVariables_reordered h).2 hv)))
  have e1 : Runtime.onRequest F { rt with traceBuff := b } req = Runtime.onRequest' F { rt with traceBuff := b } (arriving ops req) := by
    rw [Runtime.onRequest, ← arriving_eq hb]; rfl
  have e2 : Runtime.onRequest F { rt' with traceBuff := b } req = Runtime.onRequest' F { rt' with traceBuff := b } (arriving ops req) := by
    rw [Runtime.onRequest, arriving_reordered h, ← arriving_eq hb']; rfl
  have s : ∀ (x : Runtime m) T R, x.table = .static T → x.onRequest' F R = match T.get? R.Path with
      | none => some (x.onError' F R (.http Status.ErrNotFound))
      | some e => some (x.dispatch F R e) := by
    intro x T R h
    unfold Runtime.onRequest'
    rw [h]
    cases hq : T.get? R.Path <;> simp only [hq]
  rw [e1, e2, s { rt with traceBuff := b } T _ hT, s { rt' with traceBuff := b } T' _ hT']
  generalize arriving ops req = R
  have h1 := hok R.Path
  have h2 := hok' R.Path
  cases hg : T.get? R.Path with
  | none =>
    rw [hg] at h1
    cases hg' : T'.get? R.Path with
    | none =>
      obtain ⟨x, b', k1, k2⟩ := onError_same R (.http Status.ErrNotFound) (fun _ _ _ => (catchers_perm h).mem_iff) (fun e _ => handlerFor_reordered h e.Code) ties hb hb' b
      exact ⟨x, b', congrArg some k1, congrArg some k2⟩
    | some e' =>
      rw [hg'] at h2
      obtain ⟨⟨d, hd, hdp⟩, -⟩ := h2
      exact absurd hdp (h1 d ((declared_perm h).mem_iff.2 hd))
  | some e =>
    rw [hg] at h1
    cases hg' : T'.get? R.Path with
    | none =>
      rw [hg'] at h2
      obtain ⟨⟨d, hd, hdp⟩, -⟩ := h1
      exact absurd hdp (h2 d ((declared_perm h).mem_iff.1 hd))
    | some e' =>
      rw [hg'] at h2
      obtain ⟨-, m1, a1⟩ := h1
      obtain ⟨-, m2, a2⟩ := h2
      have hm : e'.methodsMap = e.methodsMap := by
        funext mt
        cases hx : e.methodsMap mt with
        | some x => exact (m2 _ _).2 ((declared_perm h).mem_iff.1 ((m1 _ _).1 hx))
        | none =>
          cases hy : e'.methodsMap mt with
          | none => rfl
          | some y => rw [(m1 _ _).2 ((declared_perm h).mem_iff.2 ((m2 _ _).1 hy))] at hx; cases hx
      have ha : e'.allow = e.allow := by rw [a1, a2, hm]
      dsimp only
      unfold Runtime.dispatch
      rw [hm, ha]
      dsimp only
      split
      · obtain ⟨x, b', k1, k2⟩ := onError_same _ (.http Status.ErrMethodNotAllowed) (fun _ _ _ => (catchers_perm h).mem_iff) (fun e _ => handlerFor_reordered h e.Code) ties hb hb' b
        exact ⟨x, b', congrArg some k1, congrArg some k2⟩
      · exact ⟨_, b, rfl, rfl⟩

/-- **C116**, without variables. Two programs make the same registrations in different orders. After any requests they have served, both do exactly the same for every request, and for every error. -/
theorem C116_same (made : make F text env ops = some rt) (made' : make F text env' ops' = some rt') (h : Reordered ops ops') (static : ¬ HasVariables ops) (ties : NoTies ops)
    (reqs : List Request) (now now' : Runtime m) (served : serving F rt reqs = some now) (served' : serving F rt' reqs = some now') :
    (∀ req, ∃ x next next', now.onRequest F req = some (x, next) ∧ now'.onRequest F req = some (x, next')) ∧
    ∀ req err, (now.onError F req err).1 = (now'.onError F req err).1 := by
  have hb := built F text env ops rt made
  have hb' := built F text env' ops' rt' made'
  have key : ∀ reqs b now now', serving F { rt with traceBuff := b } reqs = some now → serving F { rt' with traceBuff := b } reqs = some now' →
      ∃ b', now = { rt with traceBuff := b' } ∧ now' = { rt' with traceBuff := b' } := by
    intro reqs
    induction reqs with
    | nil =>
      intro b now now' e e'
      cases e; cases e'
      exact ⟨b, rfl, rfl⟩
    | cons req reqs ih =>
      intro b now now' e e'
      obtain ⟨x, b', k1, k2⟩ := onRequest_same h ties.catchers static hb hb' req b
      rw [serving, k1] at e
      rw [serving, k2] at e'
      exact ih b' now now' e e'
  have e0 : rt = { rt with traceBuff := [] } := by rw [← hb.buff]
  have e0' : rt' = { rt' with traceBuff := [] } := by rw [← hb'.buff]
  rw [e0] at served
  rw [e0'] at served'
  obtain ⟨b, rfl, rfl⟩ := key reqs [] now now' served served'
  refine ⟨fun req => ?_, fun req err => ?_⟩
  · obtain ⟨x, b', k1, k2⟩ := onRequest_same h ties.catchers static hb hb' req b
    exact ⟨x, _, _, k1, k2⟩
  · obtain ⟨x, b', k1, k2⟩ := onError_same (mutated ops req) err (fun _ _ _ => (catchers_perm h).mem_iff) (fun e _ => handlerFor_reordered h e.Code) ties.catchers hb hb' b
    have m1 : Runtime.runMutators { rt with traceBuff := b } req = mutated ops req := runMutators_eq hb req
    have m2 : Runtime.runMutators { rt' with traceBuff := b } req = mutated ops req := by rw [mutated_eq h]; exact runMutators_eq hb' req
    rw [Runtime.onError, Runtime.onError, m1, m2, k1, k2]

/-! ### With variables -/

omit [Monad m] in
/-- The lookups of programs with the same routes. -/
theorem methodsOf_keys (keys : ∀ x, x ∈ (declared ops).map (·.1) ↔ x ∈ (declared ops').map (·.1)) (p : Bytes) : methodsOf ops p = methodsOf ops' p := by
  rw [methodsOf, methodsOf]
  congr 1
  funext meth
  rw [Bool.eq_iff_iff, List.any_eq_true, List.any_eq_true]
  have := keys (p, meth)
  rw [List.mem_map, List.mem_map] at this
  simpa only [decide_eq_true_eq] using this

omit [Monad m] in
private theorem templatesOf_map (ops : List (Op m)) : templatesOf ops = ((declared ops).map (·.1)).filterMap (fun k => meant k.1) := by
  rw [templatesOf, List.filterMap_map]; rfl

omit [Monad m] in
theorem templatesOf_keys (keys : ∀ x, x ∈ (declared ops).map (·.1) ↔ x ∈ (declared ops').map (·.1)) (t : Tmpl) : t ∈ templatesOf ops ↔ t ∈ templatesOf ops' := by
  simp only [templatesOf_map, List.mem_filterMap, keys]

omit [Monad m] in
theorem hasVariables_keys (keys : ∀ x, x ∈ (declared ops).map (·.1) ↔ x ∈ (declared ops').map (·.1)) : HasVariables ops ↔ HasVariables ops' := by
  simp only [HasVariables, templatesOf_keys keys]

omit [Monad m] in
private theorem picks_keys (keys : ∀ x, x ∈ (declared ops).map (·.1) ↔ x ∈ (declared ops').map (·.1)) (ties : NoTies ops) (hv : HasVariables ops) {pick pick' : Tmpl → Option Bytes}
    (hp : Picks ops pick) (hp' : Picks ops' pick') : pick = pick' := by
  have mem : ∀ p, p ∈ (declared ops').map (·.1.1) → ∃ d ∈ declared ops, d.1.1 = p := by
    intro p hp
    obtain ⟨d, hd, e⟩ := List.mem_map.1 hp
    obtain ⟨d0, hd0, e0⟩ := List.mem_map.1 ((keys d.1).2 (List.mem_map_of_mem (f := (·.1)) hd))
    exact ⟨d0, hd0, by rw [e0, e]⟩
  have one : ∀ t route route', pick t = some route → pick' t = some route' → route = route' := by
    intro t route route' e e'
    obtain ⟨k1, k2⟩ := hp.sound t route e
    obtain ⟨k1', k2'⟩ := hp'.sound t route' e'
    obtain ⟨d, hd, rfl⟩ := List.mem_map.1 k1
    obtain ⟨d', hd', rfl⟩ := mem _ k1'
    exact ties.routes hv d hd d' hd' (k2.trans k2'.symm)
  funext t
  cases e : pick t with
  | some route =>
    obtain ⟨k1, k2⟩ := hp.sound t route e
    obtain ⟨d, hd, rfl⟩ := List.mem_map.1 k1
    have : t ∈ templatesOf ops' := (templatesOf_keys keys t).1 (List.mem_filterMap.2 ⟨d, hd, k2⟩)
    obtain ⟨route', e'⟩ := Option.isSome_iff_exists.1 (hp'.complete t this)
    rw [e', one t _ _ e e']
  | none =>
    cases e' : pick' t with
    | none => rfl
    | some route =>
      obtain ⟨k1, k2⟩ := hp'.sound t route e'
      obtain ⟨d, hd, rfl⟩ := mem _ k1
      have := hp.complete t (List.mem_filterMap.2 ⟨d, hd, k2⟩)
      rw [e] at this
      cases this

omit [Monad m] in
theorem found_keys (keys : ∀ x, x ∈ (declared ops).map (·.1) ↔ x ∈ (declared ops').map (·.1)) (ties : NoTies ops) {L L' : Lookup} (hL : Looks ops L) (hL' : Looks ops' L') :
    (∀ r route values, L.found r route values ↔ L'.found r route values) ∧ ∀ r params, L.left r params ↔ L'.left r params := by
  cases hL with
  | static hv =>
    cases hL' with
    | static hv' =>
      refine ⟨fun r route values => ?_, fun _ _ => Iff.rfl⟩
      simp only [Lookup.static, methodsOf_keys keys]
    | picked hv' _ => exact absurd ((hasVariables_keys keys).2 hv') hv
  | picked hv hp =>
    cases hL' with
    | static hv' => exact absurd ((hasVariables_keys keys).1 hv) hv'
    | picked hv' hp' =>
      rw [picks_keys keys ties hv hp hp']
      refine ⟨fun r route values => ?_, fun r params => ?_⟩
      · simp only [Lookup.picked, Unshadowed, templatesOf_keys keys]
      · simp only [Lookup.picked, templatesOf_keys keys]

omit [Monad m] in
private theorem found_iff (h : Reordered ops ops') (ties : NoTies ops) {L L' : Lookup} (hL : Looks ops L) (hL' : Looks ops' L') :
    (∀ r route values, L.found r route values ↔ L'.found r route values) ∧ ∀ r params, L.left r params ↔ L'.left r params :=
  found_keys (fun _ => ((declared_perm h).map (·.1)).mem_iff) ties hL hL'

private theorem chosen_of (h : Reordered ops ops') (ties : NoTies ops) {L L' : Lookup} (hL : Looks ops L) (hL' : Looks ops' L') {R r : Request} {k : Handler m}
    (hc : Chosen F text ops' L' R k r) : Chosen F text ops L R k r := by
  obtain ⟨hf, hl⟩ := found_iff h ties hL hL'
  cases hc with
  | route h1 h2 h3 => exact .route ((hf _ _ _).2 h1) (by rwa [methodsOf_reordered h]) ((declared_perm h).mem_iff.2 h3)
  | head h1 h2 h3 h4 h5 => exact .head ((hf _ _ _).2 h1) (by rwa [methodsOf_reordered h]) h3 (by rwa [methodsOf_reordered h]) ((declared_perm h).mem_iff.2 h5)
  | notAllowed h1 h2 h3 h4 h5 =>
    exact .notAllowed ((hf _ _ _).2 h1) (by rwa [methodsOf_reordered h]) (by rwa [methodsOf_reordered h]) (by rwa [methodsOf_reordered h]) (by rwa [handlerFor_reordered h])
  | caught h1 h2 h3 h4 h5 =>
    exact .caught (fun route values hx => h1 route values ((hf _ _ _).1 hx)) ((hl _ _).2 h2) ((catchers_perm h).mem_iff.2 h3) h4 (fun c hc => h5 c ((catchers_perm h).mem_iff.1 hc))
  | notFound h1 h2 h3 h4 =>
    exact .notFound (fun route values hx => h1 route values ((hf _ _ _).1 hx)) ((hl _ _).2 h2) (fun c hc => h3 c ((catchers_perm h).mem_iff.1 hc)) (by rwa [handlerFor_reordered h])

theorem chosen_one (nodup : ((declared ops).map (·.1)).Nodup) (ties : ((catchers ops).map (·.1)).Nodup) {L : Lookup} {R r r' : Request} {k k' : Handler m}
    (one : ∀ a b c d, L.found R a c → L.found R b d → a = b ∧ c = d)
    (hc : Chosen F text ops L R k r) (hc' : Chosen F text ops L R k' r') :
    k = k' ∧ (((∃ route values, L.found R route values) ∧ AlikeFound r r') ∨ ((∀ route values, ¬ L.found R route values) ∧ AlikeLost r r')) := by
  have hmem : ∀ route meth k, ((route, meth), k) ∈ declared ops → meth ∈ methodsOf ops route :=
    fun route meth k hd => (methodsOf_mem _ _).2 (List.mem_map_of_mem (f := (·.1)) hd)
  have found : ∀ {route values ms ms'}, L.found R route values → ms.Perm (methodsOf ops route) → ms'.Perm (methodsOf ops route) →
      ((∃ route values, L.found R route values) ∧ AlikeFound (onRoute R values ms) (onRoute R values ms')) := by
    intro route values ms ms' h1 h2 h3
    exact ⟨⟨_, _, h1⟩, _, ms, ms', h2.trans h3.symm, rfl, rfl⟩
  cases hc with
  | @route route values ms _ h1 h2 h3 =>
    cases hc' with
    | route g1 g2 g3 =>
      obtain ⟨rfl, rfl⟩ := one _ _ _ _ h1 g1
      exact ⟨nodup_fst nodup h3 g3, .inl (found h1 h2 g2)⟩
    | head g1 g2 g3 g4 g5 =>
      obtain ⟨rfl, rfl⟩ := one _ _ _ _ h1 g1
      rw [g3] at h3
      exact absurd (hmem _ _ _ h3) g4
    | notAllowed g1 g2 g3 g4 g5 =>
      obtain ⟨rfl, rfl⟩ := one _ _ _ _ h1 g1
      exact absurd (hmem _ _ _ h3) g3
    | caught g1 => exact absurd h1 (g1 _ _)
    | notFound g1 => exact absurd h1 (g1 _ _)
  | head h1 h2 h3 h4 h5 =>
    cases hc' with
    | route g1 g2 g3 =>
      obtain ⟨rfl, rfl⟩ := one _ _ _ _ h1 g1
      rw [h3] at g3
      exact absurd (hmem _ _ _ g3) h4
    | head g1 g2 g3 g4 g5 =>
      obtain ⟨rfl, rfl⟩ := one _ _ _ _ h1 g1
      exact ⟨nodup_fst nodup h5 g5, .inl (found h1 h2 g2)⟩
    | notAllowed g1 g2 g3 g4 g5 =>
      obtain ⟨rfl, rfl⟩ := one _ _ _ _ h1 g1
      exact absurd (hmem _ _ _ h5) (g4 h3)
    | caught g1 => exact absurd h1 (g1 _ _)
    | notFound g1 => exact absurd h1 (g1 _ _)
  | notAllowed h1 h2 h3 h4 h5 =>
    cases hc' with
    | route g1 g2 g3 =>
      obtain ⟨rfl, rfl⟩ := one _ _ _ _ h1 g1
      exact absurd (hmem _ _ _ g3) h3
    | head g1 g2 g3 g4 g5 =>
      obtain ⟨rfl, rfl⟩ := one _ _ _ _ h1 g1
      exact absurd (hmem _ _ _ g5) (h4 g3)
    | notAllowed g1 g2 g3 g4 g5 =>
      obtain ⟨rfl, rfl⟩ := one _ _ _ _ h1 g1
      rw [h5] at g5
      cases g5
      obtain ⟨k1, base, ms, ms', k2, k3, k4⟩ := found h1 h2 g2
      refine ⟨rfl, .inl ⟨k1, failing base (.http Status.ErrMethodNotAllowed), ms, ms', k2, ?_, ?_⟩⟩
      · rw [k3]; rfl
      · rw [k4]; rfl
    | caught g1 => exact absurd h1 (g1 _ _)
    | notFound g1 => exact absurd h1 (g1 _ _)
  | @caught pre params _ h1 h2 h3 h4 h5 =>
    cases hc' with
    | route g1 => exact absurd g1 (h1 _ _)
    | head g1 => exact absurd g1 (h1 _ _)
    | notAllowed g1 => exact absurd g1 (h1 _ _)
    | @caught pre' params' _ g1 g2 g3 g4 g5 =>
      have e : pre' = pre := (List.prefix_of_prefix_length_le g4 h4 (h5 _ g3 g4)).eq_of_length (Nat.le_antisymm (h5 _ g3 g4) (g5 _ h3 h4))
      subst e
      exact ⟨nodup_fst ties h3 g3, .inr ⟨h1, params', rfl⟩⟩
    | notFound g1 g2 g3 => exact absurd h4 (g3 _ h3)
  | notFound h1 h2 h3 h4 =>
    cases hc' with
    | route g1 => exact absurd g1 (h1 _ _)
    | head g1 => exact absurd g1 (h1 _ _)
    | notAllowed g1 => exact absurd g1 (h1 _ _)
    | caught g1 g2 g3 g4 g5 => exact absurd g4 (h3 _ g3)
    | @notFound params' _ g1 g2 g3 g4 =>
      rw [h4] at g4
      cases g4
      exact ⟨rfl, .inr ⟨h1, params', rfl⟩⟩

private theorem step_alike (made : make F text env ops = some rt) (made' : make F text env' ops' = some rt') (h : Reordered ops ops') (ties : NoTies ops) :
    ∃ L, Looks ops L ∧ ∀ req b,
      (Runtime.onRequest F { rt with traceBuff := b } req = none ∧ Runtime.onRequest F { rt' with traceBuff := b } req = none) ∨
      ∃ (k : Handler m) (r r' : Request) (b' : Bytes), Runtime.onRequest F { rt with traceBuff := b } req = some (k r, { rt with traceBuff := b' }) ∧
        Runtime.onRequest F { rt' with traceBuff := b } req = some (k r', { rt' with traceBuff := b' }) ∧
        (((∃ route values, L.found (arriving ops req) route values) ∧ AlikeFound r r') ∨ ((∀ route values, ¬ L.found (arriving ops req) route values) ∧ AlikeLost r r')) := by
  obtain ⟨L, hL, hdo⟩ := C104_every_router made
  obtain ⟨L', hL', hdo'⟩ := C104_every_router made'
  refine ⟨L, hL, fun req b => ?_⟩
  obtain ⟨hf, -⟩ := found_iff h ties hL hL'
  have hE : Echoed ops L (arriving ops req) ↔ Echoed ops' L' (arriving ops' req) := by
    rw [← arriving_reordered h]
    simp only [Echoed, hf, methodsOf_reordered h]
  by_cases hx : HasVariables ops ∧ (arriving ops req).Path = []
  · refine .inl ⟨(hdo req b).1 hx.1 hx.2, (hdo' req b).1 ((hasVariables_reordered h).1 hx.1) ?_⟩
    rw [← arriving_reordered h]; exact hx.2
  · right
    have hx' : ¬ (HasVariables ops' ∧ (arriving ops' req).Path = []) := by
      rw [← arriving_reordered h, ← hasVariables_reordered h]; exact hx
    rcases (hdo req b).2 hx with ⟨e, route, values, ms, h1, h2, h3⟩ | ⟨e, k, r, h1, h2⟩
    · rcases (hdo' req b).2 hx' with ⟨e', route', values', ms', g1, g2, g3⟩ | ⟨e', -⟩
      · rw [← arriving_reordered h] at g1 g3
        obtain ⟨rfl, rfl⟩ := C104_one_route made L hL _ _ _ _ _ h1 ((hf _ _ _).2 g1)
        rw [← methodsOf_reordered h] at g2
        exact ⟨fun r => pure (traceResponse F Fields.new (b ++ echo (arriving ops req)), r), _, _, _, h3, g3, .inl ⟨⟨_, _, h1⟩, _, ms, ms', h2.trans g2.symm, rfl, rfl⟩⟩
      · exact absurd (hE.1 e) e'
    · rcases (hdo' req b).2 hx' with ⟨e', -⟩ | ⟨e', k', r', g1, g2⟩
      · exact absurd (hE.2 e') e
      · rw [← arriving_reordered h] at g1
        obtain ⟨rfl, hr⟩ := chosen_one (built F text env ops rt made).nodup ties.catchers (fun a b c d => C104_one_route made L hL _ a b c d) h1 (chosen_of h ties hL hL' g1)
        exact ⟨k, r, r', b, h2, g2, hr⟩

/-- **C116**, for all programs. Two programs make the same registrations in different orders. After any requests they have served, both do the same for every request: the same handler is called, and the requests it is called with differ at most in the order
of the allowed methods, or, if no route was found, in the values of variables which were left behind while looking for one. Both fail to serve the same requests. -/
theorem C116_alike (made : make F text env ops = some rt) (made' : make F text env' ops' = some rt') (h : Reordered ops ops') (ties : NoTies ops) :
    ∃ L, Looks ops L ∧ ∀ reqs : List Request, (serving F rt reqs = none ↔ serving F rt' reqs = none) ∧
      ∀ now now', serving F rt reqs = some now → serving F rt' reqs = some now' → ∀ req,
        (now.onRequest F req = none ∧ now'.onRequest F req = none) ∨
        ∃ (k : Handler m) (r r' : Request) (next next' : Runtime m), now.onRequest F req = some (k r, next) ∧ now'.onRequest F req = some (k r', next') ∧
          (((∃ route values, L.found (arriving ops req) route values) ∧ AlikeFound r r') ∨ ((∀ route values, ¬ L.found (arriving ops req) route values) ∧ AlikeLost r r')) := by
  obtain ⟨L, hL, hs⟩ := step_alike made made' h ties
  refine ⟨L, hL, ?_⟩
  have key : ∀ reqs b, (serving F { rt with traceBuff := b } reqs = none ∧ serving F { rt' with traceBuff := b } reqs = none) ∨
      ∃ b', serving F { rt with traceBuff := b } reqs = some { rt with traceBuff := b' } ∧ serving F { rt' with traceBuff := b } reqs = some { rt' with traceBuff := b' } := by
    intro reqs
    induction reqs with
    | nil => intro b; exact .inr ⟨b, rfl, rfl⟩
    | cons req reqs ih =>
      intro b
      rw [serving, serving]
      rcases hs req b with ⟨k1, k2⟩ | ⟨k, r, r', b', k1, k2, -⟩
      · rw [k1, k2]; exact .inl ⟨rfl, rfl⟩
      · rw [k1, k2]; exact ih b'
  have e0 : rt = { rt with traceBuff := [] } := by rw [← (built F text env ops rt made).buff]
  have e0' : rt' = { rt' with traceBuff := [] } := by rw [← (built F text env' ops' rt' made').buff]
  intro reqs
  have kk := key reqs []
  rw [← e0, ← e0'] at kk
  rcases kk with ⟨k1, k2⟩ | ⟨b, k1, k2⟩
  · rw [k1, k2]
    exact ⟨Iff.rfl, fun _ _ e => by cases e⟩
  · rw [k1, k2]
    refine ⟨by simp, ?_⟩
    intro now now' e e' req
    cases e; cases e'
    rcases hs req b with ⟨k1, k2⟩ | ⟨k, r, r', b', k1, k2, k3⟩
    · exact .inl ⟨k1, k2⟩
    · exact .inr ⟨k, r, r', _, _, k1, k2, k3⟩

end

/-! ### On the wire -/

section
open Serve
variable {σ : Type} {text : GoErr → Bytes} {env env' : Env Act} {ops ops' : List (Op Act)} {rt rt' : Runtime Act}

/-- **C116**, on the wire, without variables. Two servers whose programs make the same registrations in different orders, and a client which does the same to both: whatever it sends, in whatever pieces, and whatever happens to the connection, the servers
read the same of it, call the same handlers with the same requests, write the same bytes, and end the connection in the same way. -/
theorem C116_wire (E : Setup σ (Runtime Act)) (router : E.router = Router.impl E.F .panic) (made : make E.F text env ops = some rt) (made' : make E.F text env' ops' = some rt')
    (h : Reordered ops ops') (static : ¬ HasVariables ops) (ties : NoTies ops) (cfg : Config) (enc : EncToken) (remote : Bytes) (cl : Client) :
    (serve E (newConn E.P cfg enc remote rt cl)).1.client = (serve E (newConn E.P cfg enc remote rt' cl)).1.client ∧
    (serve E (newConn E.P cfg enc remote rt cl)).1.visits = (serve E (newConn E.P cfg enc remote rt' cl)).1.visits ∧
    (serve E (newConn E.P cfg enc remote rt cl)).2 = (serve E (newConn E.P cfg enc remote rt' cl)).2 := by
  have hb := built E.F text env ops rt made
  have hb' := built E.F text env' ops' rt' made'
  have ag : Agrees E E.router (fun x y => ∃ b, x = { rt with traceBuff := b } ∧ y = { rt' with traceBuff := b }) (fun _ : Visit σ => True) := by
    have hq : ∀ req b, ∃ x b', (E.router.onRequest { rt with traceBuff := b } req) = (x, { rt with traceBuff := b' }) ∧ (E.router.onRequest { rt' with traceBuff := b } req) = (x, { rt' with traceBuff := b' }) := by
      intro req b
      obtain ⟨x, b', k1, k2⟩ := onRequest_same h ties.catchers static hb hb' req b
      refine ⟨x, b', ?_, ?_⟩
      · rw [router]; show (Runtime.onRequest _ _ _).getD _ = _; rw [k1]; rfl
      · rw [router]; show (Runtime.onRequest _ _ _).getD _ = _; rw [k2]; rfl
    have he : ∀ req err b, ∃ x b', (E.router.onError { rt with traceBuff := b } req err) = (x, { rt with traceBuff := b' }) ∧ (E.router.onError { rt' with traceBuff := b } req err) = (x, { rt' with traceBuff := b' }) := by
      intro req err b
      obtain ⟨x, b', k1, k2⟩ := onError_same (mutated ops req) err (fun _ _ _ => (catchers_perm h).mem_iff) (fun e _ => handlerFor_reordered h e.Code) ties.catchers hb hb' b
      refine ⟨x, b', ?_, ?_⟩
      · rw [router, ← k1, ← runMutators_eq hb req]; rfl
      · rw [router, ← k2, mutated_eq h, ← runMutators_eq hb' req]; rfl
    constructor
    · rintro x y req ⟨b, rfl, rfl⟩ -
      obtain ⟨x, b', k1, k2⟩ := hq req b
      rw [k1, k2]
    · rintro x y req e ⟨b, rfl, rfl⟩ -
      obtain ⟨x, b', k1, k2⟩ := he req e b
      rw [k1, k2]
    · rintro x y req ⟨b, rfl, rfl⟩ -
      obtain ⟨x, b', k1, k2⟩ := hq req b
      rw [k1, k2]
      exact ⟨b', rfl, rfl⟩
    · rintro x y req e ⟨b, rfl, rfl⟩ -
      obtain ⟨x, b', k1, k2⟩ := he req e b
      rw [k1, k2]
      exact ⟨b', rfl, rfl⟩
  have e0 : rt = { rt with traceBuff := [] } := by rw [← hb.buff]
  have e0' : rt' = { rt' with traceBuff := [] } := by rw [← hb'.buff]
  obtain ⟨k1, k2⟩ := serve_like ag (a := newConn E.P cfg enc remote rt cl) (b := newConn E.P cfg enc remote rt' cl) ⟨⟨[], e0, e0'⟩, rfl⟩ (fun _ _ => trivial)
  refine ⟨?_, ?_, k1⟩
  · have := congrArg (fun c : Conn σ (Runtime Act) => c.client) k2.same
    exact this
  · have := congrArg (fun c : Conn σ (Runtime Act) => c.visits) k2.same
    exact this

end
/-! ### Examples -/

section
open Serve

private def say (text : Bytes) : Handler Act := fun r => pure (Fields.new.bytes text, r)

private def louder : Middleware Act := fun next r => (next r).bind (fun x => pure ({ x.1 with Body := x.1.Body ++ b!"!" }, x.2))

/-- A group, a middleware, routes, a catcher, an error handler and an alias. -/
private def tidy : List (Op Act) :=
  [.use 0 [louder], .alias 0 b!"/index" b!"/", .group 0 b!"/api", .routeError 0 (say b!"lost") [404], .route 0 .GET b!"/" (say b!"home") [],
    .route 1 .GET b!"/now" (say b!"now") [louder], .route 1 .POST b!"/now" (say b!"later") [], .catch 0 b!"/old" (say b!"moved") []]

/-- The same in another order: the middleware comes last. -/
private def untidy : List (Op Act) :=
  [.catch 0 b!"/old" (say b!"moved") [], .route 0 .GET b!"/" (say b!"home") [], .group 0 b!"/api", .route 1 .POST b!"/now" (say b!"later") [],
    .routeError 0 (say b!"lost") [404], .route 1 .GET b!"/now" (say b!"now") [louder], .alias 0 b!"/index" b!"/", .use 0 [louder]]

private theorem tidied : Reordered tidy untidy where
  groups := rfl
  middlewares r := by
    by_cases h : 0 = r <;> simp [tidy, untidy, addsMiddlewares, h]
  errors := rfl
  mutators r := by
    by_cases h : 0 = r <;> simp [tidy, untidy, changesRequests, h]
  others := by
    have e : tidy.filter registers = [.route 0 .GET b!"/" (say b!"home") [], .route 1 .GET b!"/now" (say b!"now") [louder], .route 1 .POST b!"/now" (say b!"later") [], .catch 0 b!"/old" (say b!"moved") []] := rfl
    have e' : untidy.filter registers = [.catch 0 b!"/old" (say b!"moved") [], .route 0 .GET b!"/" (say b!"home") [], .route 1 .POST b!"/now" (say b!"later") [], .route 1 .GET b!"/now" (say b!"now") [louder]] := rfl
    rw [e, e']
    refine List.Perm.trans ?_ (List.perm_append_comm (l₁ := [_, _, _]) (l₂ := [_]))
    exact .cons _ (.swap _ _ _)
  before := run_wellReferenced (newWorld_empty Fold.ascii (fun _ => [])) untidy (by decide +kernel)

private theorem tidy_declared : (declared tidy).map (·.1) = [(b!"/", .GET), (b!"/api/now", .GET), (b!"/api/now", .POST)] := by decide +kernel

private theorem tidy_static : ¬ HasVariables tidy := by
  have e : templatesOf tidy = [[], [.lit b!"api", .lit b!"now"], [.lit b!"api", .lit b!"now"]] := by decide +kernel
  rintro ⟨t, ht, n, hn⟩
  rw [e] at ht
  simp only [List.mem_cons, List.not_mem_nil, or_false] at ht
  rcases ht with rfl | rfl | rfl <;> simp at hn

private theorem tidy_ties : NoTies tidy where
  catchers := by
    have e : (catchers tidy).map (·.1) = [b!"/old"] := by decide +kernel
    rw [e]; simp
  routes h := absurd h tidy_static

/-- Both programs can be built, neither has variables, and there is no choice; and both answer the route in the group, inside of the middleware registered last in one of them. -/
example : (∃ rt, make Fold.ascii (fun _ => []) sampleEnv tidy = some rt) ∧ (∃ rt, make Fold.ascii (fun _ => []) sampleEnv untidy = some rt) ∧
    Reordered tidy untidy ∧ ¬ HasVariables tidy ∧ NoTies tidy ∧
    ∀ ops ∈ [tidy, untidy], ((make Fold.ascii (fun _ => []) sampleEnv ops).bind (fun rt => rt.onRequest Fold.ascii { Method := .GET, Path := b!"/api/now/" })).map
      (fun x => ((x.1).run refParser 0 { body := Body.new refParser 10, client := {}, hijacked := false }).1.map (·.1.Body)) = some (some b!"now!!") := by
  have made : ∃ rt, make Fold.ascii (fun _ => []) sampleEnv tidy = some rt := by
    rw [← Option.isSome_iff_exists]; decide +kernel
  obtain ⟨rt, h⟩ := made
  refine ⟨⟨rt, h⟩, C116_accepted h tidied, tidied, tidy_static, tidy_ties, ?_⟩
  intro ops ho
  simp only [List.mem_cons, List.not_mem_nil, or_false] at ho
  rcases ho with rfl | rfl <;> decide +kernel

/-- With variables. -/
private def rooms : List (Op Act) := [.use 0 [louder], .route 0 .GET b!"/room/{n}" (say b!"room") [], .route 0 .GET b!"/room/hall" (say b!"hall") []]

private def rooms' : List (Op Act) := [.route 0 .GET b!"/room/hall" (say b!"hall") [], .route 0 .GET b!"/room/{n}" (say b!"room") [], .use 0 [louder]]

/-- The hypotheses of `C116_alike` can be met by programs with variables. -/
example : (∃ rt, make Fold.ascii (fun _ => []) sampleEnv rooms = some rt) ∧ Reordered rooms rooms' ∧ HasVariables rooms ∧ NoTies rooms ∧
    ∀ ops ∈ [rooms, rooms'], [b!"/room/hall", b!"/room/5"].map (fun path => ((make Fold.ascii (fun _ => []) sampleEnv ops).bind (fun rt => rt.onRequest Fold.ascii { Method := .GET, Path := path })).map
      (fun x => ((x.1).run refParser 0 { body := Body.new refParser 10, client := {}, hijacked := false }).1.map (·.1.Body))) = [some (some b!"hall!"), some (some b!"room!")] := by
  have e : templatesOf rooms = [[.lit b!"room", .var b!"n"], [.lit b!"room", .lit b!"hall"]] := by decide +kernel
  have d : (declared rooms).map (·.1.1) = [b!"/room/{n}", b!"/room/hall"] := by decide +kernel
  refine ⟨?_, ⟨rfl, fun r => ?_, rfl, fun r => rfl, .swap _ _ _, run_wellReferenced (newWorld_empty Fold.ascii (fun _ => [])) rooms' (by decide +kernel)⟩,
    ⟨_, by rw [e]; exact List.mem_cons_self .., b!"n", by simp⟩, ⟨?_, ?_⟩, ?_⟩
  · rw [← Option.isSome_iff_exists]; decide +kernel
  · by_cases h : 0 = r <;> simp [rooms, rooms', addsMiddlewares, h]
  · have c : (catchers rooms).map (·.1) = [] := by decide +kernel
    rw [c]; simp
  · intro _ x hx y hy h
    have hx' := List.mem_map_of_mem (f := (·.1.1)) hx
    have hy' := List.mem_map_of_mem (f := (·.1.1)) hy
    rw [d] at hx' hy'
    have all : ∀ p ∈ [b!"/room/{n}", b!"/room/hall"], ∀ q ∈ [b!"/room/{n}", b!"/room/hall"], meant p = meant q → p = q := by decide +kernel
    exact all _ hx' _ hy' h
  · intro ops ho
    simp only [List.mem_cons, List.not_mem_nil, or_false] at ho
    rcases ho with rfl | rfl <;> decide +kernel

end
end Indigo.Props
