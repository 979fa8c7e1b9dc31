import Verif.Proofs.Router2

namespace Indigo.Router

open Indigo.Spec.Router

variable {m : Type → Type}

/-! ### What the calls leave in the routers -/

/-- A route inside of more middlewares. -/
def wrD (ws : List (Middleware m)) (d : Decl m) : Decl m := (d.1, wrap ws d.2)

/-- A catcher inside of more middlewares. -/
def wrC (ws : List (Middleware m)) (d : Bytes × Handler m) : Bytes × Handler m := (d.1, wrap ws d.2)

def routeItems (ops : List (Op m)) : Op m → List (Decl m)
  | .route r meth path h mws => [((UriNormalize.normalize (prefixOf ops r ++ path), meth), wrap mws h)]
  | _ => []

def catchItems (ops : List (Op m)) : Op m → List (Bytes × Handler m)
  | .catch r pre h mws => [(GoPath.join (prefixOf ops r) pre, wrap mws h)]
  | _ => []

def mutItems (ops : List (Op m)) : Op m → List Mutator
  | .mutator _ f => [f]
  | .alias r source target => [aliasMutator (GoPath.join (prefixOf ops r) source) target]
  | _ => []

def useItems : Op m → List (Middleware m)
  | .use _ mws => mws
  | _ => []

/-- The calls of `RouteError`. -/
def errItems : Op m → List (Status.Code × Handler m)
  | .routeError _ h codes => (if codes = [] then [0] else codes).map (fun c => (c, h))
  | _ => []

theorem flatMap_congr {α β : Type _} {f g : α → List β} (l : List α) (h : ∀ x ∈ l, f x = g x) :
    l.flatMap f = l.flatMap g := by
  induction l with
  | nil => rfl
  | cons a l ih => rw [List.flatMap_cons, List.flatMap_cons, h a (by simp), ih (fun x hx => h x (by simp [hx]))]

theorem uses_eq (ops : List (Op m)) (k : Nat) : uses ops k = own useItems ops k := by
  refine flatMap_congr ops (fun op _ => ?_)
  by_cases hk : op.on = k <;> cases op <;> simp only [Op.on] at hk <;> simp [useItems, Op.on, hk]

theorem redirecting_eq (source target : Bytes) : redirecting source target = aliasMutator source target := rfl

theorem ownMutators_eq (ops : List (Op m)) (k : Nat) : ownMutators ops k = own (mutItems ops) ops k := by
  refine flatMap_congr ops (fun op _ => ?_)
  by_cases hk : op.on = k <;> cases op <;> simp only [Op.on] at hk <;> simp [mutItems, Op.on, hk, redirecting_eq]

theorem places_length_snoc (ops : List (Op m)) (op : Op m) (k : Nat) (hk : k < (places ops).length) :
    (places (ops ++ [op]))[k]? = (places ops)[k]? := by
  rw [places_snoc]
  cases op with
  | group r p =>
    simp only
    cases (places ops)[r]? with
    | none => rfl
    | some q => exact List.getElem?_append_left hk
  | _ => rfl

theorem prefixOf_snoc (ops : List (Op m)) (op : Op m) (k : Nat) (hk : k < (places ops).length) :
    prefixOf (ops ++ [op]) k = prefixOf ops k := by
  rw [prefixOf, prefixOf, places_length_snoc ops op k hk]

theorem own_snoc {β : Type} (items items' : Op m → List β) (ops : List (Op m)) (op : Op m) (k : Nat)
    (h : ∀ o ∈ ops ++ [op], items' o = items o) :
    own items' (ops ++ [op]) k = own items ops k ++ (if op.on = k then items op else []) := by
  have : own items' (ops ++ [op]) k = own items (ops ++ [op]) k :=
    flatMap_congr _ (fun o ho => by simp [h o ho])
  rw [this, own, own, List.flatMap_append]
  simp

theorem own_fresh {β : Type} (items : Op m → List β) (ops : List (Op m)) (k : Nat) (h : ∀ o ∈ ops, o.on < k) :
    own items ops k = [] := by
  rw [own, List.flatMap_eq_nil_iff]
  intro o ho
  have := h o ho
  rw [if_neg (by omega)]

theorem routeItems_snoc (ops : List (Op m)) (op o : Op m) (h : o.on < (places ops).length) :
    routeItems (ops ++ [op]) o = routeItems ops o := by
  cases o <;> simp only [routeItems]
  simp only [Op.on] at h
  rw [prefixOf_snoc _ _ _ h]

theorem catchItems_snoc (ops : List (Op m)) (op o : Op m) (h : o.on < (places ops).length) :
    catchItems (ops ++ [op]) o = catchItems ops o := by
  cases o <;> simp only [catchItems]
  simp only [Op.on] at h
  rw [prefixOf_snoc _ _ _ h]

theorem mutItems_snoc (ops : List (Op m)) (op o : Op m) (h : o.on < (places ops).length) :
    mutItems (ops ++ [op]) o = mutItems ops o := by
  cases o <;> simp only [mutItems]
  simp only [Op.on] at h
  rw [prefixOf_snoc _ _ _ h]

/-- The group made by a call. -/
def newKid (ops : List (Op m)) (op : Op m) (k : Nat) : List Nat :=
  match op with
  | .group r _ => if r = k then [(places ops).length] else []
  | _ => []

theorem kids_snoc (ops : List (Op m)) (op : Op m) (hop : op.on < (places ops).length) (k : Nat) :
    kids (ops ++ [op]) k = kids ops k ++ newKid ops op k := by
  cases op with
  | group r p =>
    obtain ⟨q, hq⟩ : ∃ q, (places ops)[r]? = some q := ⟨_, List.getElem?_eq_getElem hop⟩
    have hpl : places (ops ++ [.group r p]) =
        places ops ++ [⟨q.line ++ [(places ops).length], q.pre ++ p⟩] := by rw [places_snoc]; simp only [hq]
    obtain ⟨⟨l, hl⟩, -⟩ := (places_ok ops).line r q hq
    rw [kids, kids, hpl, List.length_append, List.length_singleton, List.range_succ, List.filter_append]
    congr 1
    · refine List.filter_congr ?_
      intro c hc
      rw [List.getElem?_append_left (by simpa using hc)]
    · simp only [newKid]
      rw [List.filter_cons]
      simp [hl]
  | _ =>
    simp only [newKid]
    rw [List.append_nil, kids, kids, places_snoc]

/-- A template with variables. -/
def isDyn (path : Bytes) : Bool :=
  match Radix.parse path with
  | .ok t => !Radix.isStatic t
  | .error _ => false

/-- The state of one router. -/
structure RecInv (ops : List (Op m)) (k : Nat) (rec : Rec m) : Prop where
  pre : rec.prefix_ = prefixOf ops k
  mws : rec.middlewares = uses ops k
  muts : rec.mutators = ownMutators ops k
  catchers : rec.catchers.map (fun c => (c.Prefix, c.Handler)) = own (catchItems ops) ops k
  routes : Rep rec.registrar.routes (own (routeItems ops) ops k)
  dyn : rec.registrar.isDynamic = (own (routeItems ops) ops k).any (fun d => isDyn d.1.1)
  children : rec.children = kids ops k

/-- The state of all routers. -/
structure Inv (w₀ : World m) (ops : List (Op m)) (w : World m) : Prop where
  len : w.routers.length = (places ops).length
  refs : ∀ op ∈ ops, op.on < (places ops).length
  recs : ∀ k rec, w.routers[k]? = some rec → RecInv ops k rec
  errs : w.errHandlers = (ops.flatMap errItems).foldl (fun hs e => hs.set e.1 e.2) w₀.errHandlers
  parsed : ∀ k, ∀ d ∈ own (routeItems ops) ops k, ∃ t, Radix.parse d.1.1 = .ok t
  caught : ∀ k, ((own (catchItems ops) ops k).map (·.1)).Nodup

/-- A call which does not concern a router does not change its state. -/
theorem RecInv.frame {ops : List (Op m)} {k : Nat} {rec : Rec m} (h : RecInv ops k rec) (op : Op m)
    (hk : k < (places ops).length) (hop : op.on < (places ops).length)
    (refs : ∀ op ∈ ops, op.on < (places ops).length) (hne : op.on ≠ k) : RecInv (ops ++ [op]) k rec := by
  have refs' : ∀ o ∈ ops ++ [op], o.on < (places ops).length := by
    intro o ho
    rcases List.mem_append.1 ho with ho | ho
    · exact refs o ho
    · simp at ho; rw [ho]; exact hop
  refine ⟨?_, ?_, ?_, ?_, ?_, ?_, ?_⟩
  · rw [prefixOf_snoc _ _ _ hk]; exact h.pre
  · rw [h.mws, uses_eq, uses_eq, own_snoc useItems useItems ops op k (fun _ _ => rfl), if_neg hne]; simp
  · rw [h.muts, ownMutators_eq, ownMutators_eq,
      own_snoc (mutItems ops) _ ops op k (fun o ho => mutItems_snoc ops op o (refs' o ho)), if_neg hne]; simp
  · rw [h.catchers, own_snoc (catchItems ops) _ ops op k (fun o ho => catchItems_snoc ops op o (refs' o ho)),
      if_neg hne]; simp
  · rw [own_snoc (routeItems ops) _ ops op k (fun o ho => routeItems_snoc ops op o (refs' o ho)), if_neg hne,
      List.append_nil]
    exact h.routes
  · rw [own_snoc (routeItems ops) _ ops op k (fun o ho => routeItems_snoc ops op o (refs' o ho)), if_neg hne,
      List.append_nil]
    exact h.dyn
  · rw [h.children, kids_snoc _ _ hop]
    have : newKid ops op k = [] := by
      cases op with
      | group r p => exact if_neg hne
      | _ => rfl
    rw [this, List.append_nil]

theorem refs_snoc {ops : List (Op m)} {op : Op m} (hop : op.on < (places ops).length)
    (refs : ∀ op ∈ ops, op.on < (places ops).length) : ∀ o ∈ ops ++ [op], o.on < (places ops).length := by
  intro o ho
  rcases List.mem_append.1 ho with ho | ho
  · exact refs o ho
  · simp at ho; rw [ho]; exact hop

/-- The condition under which a call does not panic, if those before it did not. -/
def Fine (ops : List (Op m)) (op : Op m) : Prop :=
  op.on < (places ops).length ∧
  (∀ d ∈ routeItems ops op, (∃ t, Radix.parse d.1.1 = .ok t) ∧ d.1 ∉ (own (routeItems ops) ops op.on).map (·.1)) ∧
  (∀ d ∈ catchItems ops op, d.1 ∉ (own (catchItems ops) ops op.on).map (·.1))

/-- What a call does to the router it is made on. -/
def effect (op : Op m) (rec : Rec m) (n : Nat) : Option (Rec m) :=
  match op with
  | .group _ _ => some { rec with children := rec.children ++ [n] }
  | .use _ mws => some { rec with middlewares := rec.middlewares ++ mws }
  | .route _ meth path handler mws =>
    match rec.registrar.add (rec.prefix_ ++ path) meth (compose handler mws) with
    | none => none
    | some reg => some { rec with registrar := reg }
  | .routeError _ _ _ => some rec
  | .catch _ pre handler mws =>
    if rec.catchers.any (fun c => c.Prefix = GoPath.join rec.prefix_ pre) then none
    else some { rec with catchers := rec.catchers ++ [⟨GoPath.join rec.prefix_ pre, compose handler mws⟩] }
  | .mutator _ f => some { rec with mutators := rec.mutators ++ [f] }
  | .alias _ source target =>
    some { rec with mutators := rec.mutators ++ [aliasMutator (GoPath.join rec.prefix_ source) target] }

/-- The routers a call adds. -/
def fresh (op : Op m) (rec : Rec m) : List (Rec m) :=
  match op with
  | .group _ pre => [{ prefix_ := rec.prefix_ ++ pre }]
  | _ => []

theorem step_eq (w : World m) (op : Op m) : step w op =
    (w.routers[op.on]?).bind (fun rec => (effect op rec w.routers.length).map (fun rec' =>
      { routers := w.routers.set op.on rec' ++ fresh op rec
        errHandlers := (errItems op).foldl (fun hs e => hs.set e.1 e.2) w.errHandlers })) := by
  cases op with
  | routeError r h codes =>
    simp only [step, Op.on, effect, fresh, errItems]
    cases hr : w.routers[r]? with
    | none => rfl
    | some rec =>
      obtain ⟨hl, hx⟩ := List.getElem?_eq_some_iff.1 hr
      simp only [Option.bind_some, Option.map_some, List.append_nil, Option.some.injEq, World.mk.injEq]
      refine ⟨?_, ?_⟩
      · rw [← hx]; simp
      · rw [List.foldl_map]
        cases codes <;> simp [AllErrors]
  | group r p =>
    simp only [step, Op.on, effect, fresh, errItems]
    cases w.routers[r]? <;> rfl
  | route r meth path h mws =>
    simp only [step, World.modify, Op.on, effect, fresh, errItems, List.append_nil]
    cases w.routers[r]? with
    | none => rfl
    | some rec =>
      simp only [Option.bind_some]
      cases rec.registrar.add (rec.prefix_ ++ path) meth (compose h mws) <;> rfl
  | «catch» r pre h mws =>
    simp only [step, World.modify, Op.on, effect, fresh, errItems, List.append_nil]
    cases w.routers[r]? with
    | none => rfl
    | some rec =>
      simp only [Option.bind_some]
      by_cases hh : rec.catchers.any (fun c => decide (c.Prefix = GoPath.join rec.prefix_ pre)) = true
      · simp only [hh, if_true]; rfl
      · simp only [hh]; rfl
  | use r mws =>
    simp only [step, World.modify, Op.on, effect, fresh, errItems, List.append_nil]
    cases w.routers[r]? <;> rfl
  | mutator r mws =>
    simp only [step, World.modify, Op.on, effect, fresh, errItems, List.append_nil]
    cases w.routers[r]? <;> rfl
  | alias r a b =>
    simp only [step, World.modify, Op.on, effect, fresh, errItems, List.append_nil]
    cases w.routers[r]? <;> rfl

theorem add_isSome (r : Registrar m) (L : List (Decl m)) (h : Rep r.routes L) (p : Bytes) (mt : Method)
    (x : Handler m) : (r.add p mt x).isSome = true ↔
      (∃ t, Radix.parse (UriNormalize.normalize p) = .ok t) ∧ (UriNormalize.normalize p, mt) ∉ L.map (·.1) := by
  simp only [Registrar.add]
  by_cases hs : (UriNormalize.normalize p, mt) ∈ L.map (·.1)
  · rw [if_pos ((h.isSome _ _).2 hs)]; simp [hs]
  · rw [if_neg (fun hh => hs ((h.isSome _ _).1 hh))]
    cases hp : Radix.parse (UriNormalize.normalize p) with
    | error e => simp
    | ok t => simp only [Option.isSome_some, true_iff]; exact ⟨⟨t, rfl⟩, hs⟩

theorem add_spec (r r' : Registrar m) (L : List (Decl m)) (h : Rep r.routes L) (p : Bytes) (mt : Method)
    (x : Handler m) (he : r.add p mt x = some r') :
    Rep r'.routes (L ++ [((UriNormalize.normalize p, mt), x)]) ∧
      r'.isDynamic = (r.isDynamic || isDyn (UriNormalize.normalize p)) := by
  simp only [Registrar.add] at he
  by_cases hs : (UriNormalize.normalize p, mt) ∈ L.map (·.1)
  · rw [if_pos ((h.isSome _ _).2 hs)] at he; simp at he
  · rw [if_neg (fun hh => hs ((h.isSome _ _).1 hh))] at he
    cases hp : Radix.parse (UriNormalize.normalize p) with
    | error e => rw [hp] at he; simp at he
    | ok t =>
      rw [hp] at he
      simp only [Option.some.injEq] at he
      subst he
      exact ⟨h.add _ _ _ hs, by simp [isDyn, hp]⟩

theorem catchers_any {ops : List (Op m)} {k : Nat} {rec : Rec m} (h : RecInv ops k rec) (p : Bytes) :
    rec.catchers.any (fun c => c.Prefix = p) = true ↔ p ∈ (own (catchItems ops) ops k).map (·.1) := by
  rw [← h.catchers, List.map_map, List.any_eq_true]
  simp only [List.mem_map, Function.comp, decide_eq_true_eq]

/-- A call is fine exactly if it does not panic. -/
theorem effect_isSome {ops : List (Op m)} {op : Op m} {rec : Rec m} (hk : op.on < (places ops).length)
    (h : RecInv ops op.on rec) (n : Nat) : (effect op rec n).isSome = true ↔ Fine ops op := by
  cases op with
  | route r meth path x mws =>
    simp only [Op.on] at hk h
    simp only [effect, Fine, routeItems, catchItems, Op.on, List.mem_singleton, forall_eq, List.not_mem_nil,
      false_implies, implies_true, and_true, hk, true_and]
    rw [← h.pre, ← add_isSome _ _ h.routes _ _ (compose x mws)]
    cases rec.registrar.add (rec.prefix_ ++ path) meth (compose x mws) <;> simp
  | «catch» r pre x mws =>
    simp only [Op.on] at hk h
    simp only [effect, Fine, routeItems, catchItems, Op.on, List.mem_singleton, forall_eq, List.not_mem_nil,
      false_implies, implies_true, hk, true_and]
    rw [← h.pre, ← catchers_any h]
    split <;> rename_i hh <;> simp [hh]
  | _ => simpa [effect, Fine, routeItems, catchItems] using hk

/-- The router a call is made on, afterwards. -/
theorem effect_inv {ops : List (Op m)} {op : Op m} {rec rec' : Rec m} (hk : op.on < (places ops).length)
    (refs : ∀ op ∈ ops, op.on < (places ops).length)
    (h : RecInv ops op.on rec) (he : effect op rec (places ops).length = some rec') :
    RecInv (ops ++ [op]) op.on rec' := by
  have refs' := refs_snoc hk refs
  have huse : uses (ops ++ [op]) op.on = uses ops op.on ++ useItems op := by
    rw [uses_eq, uses_eq, own_snoc useItems useItems ops op _ (fun _ _ => rfl), if_pos rfl]
  have hmut : ownMutators (ops ++ [op]) op.on = ownMutators ops op.on ++ mutItems ops op := by
    rw [ownMutators_eq, ownMutators_eq,
      own_snoc (mutItems ops) _ ops op _ (fun o ho => mutItems_snoc ops op o (refs' o ho)), if_pos rfl]
  have hcat : own (catchItems (ops ++ [op])) (ops ++ [op]) op.on = own (catchItems ops) ops op.on ++ catchItems ops op := by
    rw [own_snoc (catchItems ops) _ ops op _ (fun o ho => catchItems_snoc ops op o (refs' o ho)), if_pos rfl]
  have hrou : own (routeItems (ops ++ [op])) (ops ++ [op]) op.on = own (routeItems ops) ops op.on ++ routeItems ops op := by
    rw [own_snoc (routeItems ops) _ ops op _ (fun o ho => routeItems_snoc ops op o (refs' o ho)), if_pos rfl]
  have hkid := kids_snoc ops op hk op.on
  have hpre := prefixOf_snoc ops op _ hk
  cases op with
  | route r meth path x mws =>
    simp only [effect] at he
    cases ha : rec.registrar.add (rec.prefix_ ++ path) meth (compose x mws) with
    | none => rw [ha] at he; simp at he
    | some reg =>
      rw [ha] at he
      simp only [Option.some.injEq] at he
      subst he
      obtain ⟨h1, h2⟩ := add_spec _ _ _ h.routes _ _ _ ha
      rw [h.pre, compose_eq_wrap] at h1
      rw [h.pre] at h2
      refine ⟨?_, ?_, ?_, ?_, ?_, ?_, ?_⟩
      · rw [hpre]; exact h.pre
      · rw [huse]; simpa [useItems] using h.mws
      · rw [hmut]; simpa [mutItems] using h.muts
      · rw [hcat]; simpa [catchItems] using h.catchers
      · rw [hrou]; exact h1
      · rw [hrou, List.any_append, ← h.dyn]; simpa [routeItems, Op.on] using h2
      · rw [hkid]; simpa [newKid] using h.children
  | «catch» r pre x mws =>
    simp only [effect] at he
    split at he
    · simp at he
    · simp only [Option.some.injEq] at he
      subst he
      refine ⟨?_, ?_, ?_, ?_, ?_, ?_, ?_⟩
      · rw [hpre]; exact h.pre
      · rw [huse]; simpa [useItems] using h.mws
      · rw [hmut]; simpa [mutItems] using h.muts
      · rw [hcat, ← h.catchers]; simp [catchItems, h.pre, compose_eq_wrap, Op.on]
      · rw [hrou]; simpa [routeItems] using h.routes
      · rw [hrou]; simpa [routeItems] using h.dyn
      · rw [hkid]; simpa [newKid] using h.children
  | group r p =>
    simp only [effect, Option.some.injEq] at he
    subst he
    refine ⟨?_, ?_, ?_, ?_, ?_, ?_, ?_⟩
    · rw [hpre]; exact h.pre
    · rw [huse]; simpa [useItems] using h.mws
    · rw [hmut]; simpa [mutItems] using h.muts
    · rw [hcat]; simpa [catchItems] using h.catchers
    · rw [hrou]; simpa [routeItems] using h.routes
    · rw [hrou]; simpa [routeItems] using h.dyn
    · rw [hkid]; simp [newKid, h.children, Op.on]
  | use r mws =>
    simp only [effect, Option.some.injEq] at he
    subst he
    refine ⟨?_, ?_, ?_, ?_, ?_, ?_, ?_⟩
    · rw [hpre]; exact h.pre
    · rw [huse]; simp [useItems, h.mws]
    · rw [hmut]; simpa [mutItems] using h.muts
    · rw [hcat]; simpa [catchItems] using h.catchers
    · rw [hrou]; simpa [routeItems] using h.routes
    · rw [hrou]; simpa [routeItems] using h.dyn
    · rw [hkid]; simpa [newKid] using h.children
  | routeError r a b =>
    simp only [effect, Option.some.injEq] at he
    subst he
    refine ⟨?_, ?_, ?_, ?_, ?_, ?_, ?_⟩
    · rw [hpre]; exact h.pre
    · rw [huse]; simpa [useItems] using h.mws
    · rw [hmut]; simpa [mutItems] using h.muts
    · rw [hcat]; simpa [catchItems] using h.catchers
    · rw [hrou]; simpa [routeItems] using h.routes
    · rw [hrou]; simpa [routeItems] using h.dyn
    · rw [hkid]; simpa [newKid] using h.children
  | mutator r f =>
    simp only [effect, Option.some.injEq] at he
    subst he
    refine ⟨?_, ?_, ?_, ?_, ?_, ?_, ?_⟩
    · rw [hpre]; exact h.pre
    · rw [huse]; simpa [useItems] using h.mws
    · rw [hmut]; simp [mutItems, h.muts]
    · rw [hcat]; simpa [catchItems] using h.catchers
    · rw [hrou]; simpa [routeItems] using h.routes
    · rw [hrou]; simpa [routeItems] using h.dyn
    · rw [hkid]; simpa [newKid] using h.children
  | alias r a b =>
    simp only [effect, Option.some.injEq] at he
    subst he
    refine ⟨?_, ?_, ?_, ?_, ?_, ?_, ?_⟩
    · rw [hpre]; exact h.pre
    · rw [huse]; simpa [useItems] using h.mws
    · rw [hmut]; simp [mutItems, h.muts, h.pre, Op.on]
    · rw [hcat]; simpa [catchItems] using h.catchers
    · rw [hrou]; simpa [routeItems] using h.routes
    · rw [hrou]; simpa [routeItems] using h.dyn
    · rw [hkid]; simpa [newKid] using h.children

theorem run_snoc (w : World m) (ops : List (Op m)) (op : Op m) :
    run w (ops ++ [op]) = (run w ops).bind (fun w => step w op) := by
  induction ops generalizing w with
  | nil =>
    simp only [List.nil_append, run, Option.bind_some]
    cases step w op <;> rfl
  | cons o ops ih =>
    simp only [List.cons_append, run]
    cases step w o with
    | none => rfl
    | some w' => exact ih w'

/-- A world with nothing but the root. -/
def Empty (w₀ : World m) : Prop := w₀.routers = [{}]

theorem inv_nil {w₀ : World m} (h0 : Empty w₀) : Inv w₀ [] w₀ := by
  refine ⟨by rw [h0]; rfl, by simp, ?_, rfl, by intro k d hd; simp [own] at hd, by intro k; simp [own]⟩
  intro k rec hk
  rw [h0] at hk
  cases k with
  | zero =>
    simp at hk
    subst hk
    exact ⟨rfl, rfl, rfl, rfl, ⟨Wf.nil, List.Perm.refl _⟩, rfl, rfl⟩
  | succ k => simp at hk

/-- The state of all routers after any calls. -/
theorem run_inv {w₀ : World m} (h0 : Empty w₀) (ops : List (Op m)) :
    ∀ w, run w₀ ops = some w → Inv w₀ ops w := by
  induction ops using snoc_induction with
  | nil => rintro w ⟨⟩; exact inv_nil h0
  | snoc ops op ih =>
    intro w'' hw
    rw [run_snoc] at hw
    cases hr : run w₀ ops with
    | none => rw [hr] at hw; simp at hw
    | some w =>
      rw [hr, Option.bind_some, step_eq] at hw
      have hi := ih w hr
      cases hrec : w.routers[op.on]? with
      | none => rw [hrec] at hw; simp at hw
      | some rec =>
        rw [hrec, Option.bind_some] at hw
        have hon : op.on < (places ops).length := by
          rw [← hi.len]; exact (List.getElem?_eq_some_iff.1 hrec).1
        have hri := hi.recs _ _ hrec
        cases he : effect op rec w.routers.length with
        | none => rw [he] at hw; simp at hw
        | some rec' =>
          rw [he] at hw
          simp only [Option.map_some, Option.some.injEq] at hw
          subst hw
          have hfine := (effect_isSome hon hri _).1 (by rw [he]; rfl)
          rw [hi.len] at he
          have hri' := effect_inv hon hi.refs hri he
          have refs' := refs_snoc hon hi.refs
          have hlen' : (places (ops ++ [op])).length = (places ops).length + (fresh op rec).length := by
            rw [places_snoc]
            cases op with
            | group r p =>
              obtain ⟨q, hq⟩ : ∃ q, (places ops)[r]? = some q := ⟨_, List.getElem?_eq_getElem hon⟩
              simp [hq, fresh]
            | _ => rfl
          refine ⟨?_, ?_, ?_, ?_, ?_, ?_⟩
          · rw [hlen', List.length_append, List.length_set, hi.len]
          · intro o ho; have := refs' o ho; omega
          · intro k r hk
            by_cases hkl : k < (places ops).length
            · simp only at hk
              rw [List.getElem?_append_left (by rw [List.length_set, hi.len]; exact hkl)] at hk
              by_cases hne : op.on = k
              · subst hne
                rw [List.getElem?_set_self (by rw [hi.len]; exact hon)] at hk
                simp only [Option.some.injEq] at hk
                subst hk
                exact hri'
              · rw [List.getElem?_set_ne hne] at hk
                exact (hi.recs k r hk).frame op hkl hon hi.refs hne
            · simp only at hk
              rw [List.getElem?_append_right (by rw [List.length_set, hi.len]; omega), List.length_set, hi.len] at hk
              cases op with
              | group r' p =>
                simp only [fresh] at hk
                have hz : k - (places ops).length = 0 := by
                  refine Decidable.byContradiction fun hn => ?_
                  rw [List.getElem?_eq_none (by simp; omega)] at hk
                  simp at hk
                have hkk : k = (places ops).length := by omega
                rw [hz] at hk
                simp at hk
                obtain ⟨q, hq⟩ : ∃ q, (places ops)[r']? = some q := ⟨_, List.getElem?_eq_getElem hon⟩
                have hfr : ∀ o ∈ ops ++ [Op.group r' p], o.on < k := by rw [hkk]; exact refs'
                have hpl : places (ops ++ [.group r' p]) =
                    places ops ++ [⟨q.line ++ [(places ops).length], q.pre ++ p⟩] := by
                  rw [places_snoc]; simp only [hq]
                subst hk
                refine ⟨?_, ?_, ?_, ?_, ?_, ?_, ?_⟩
                · simp only [prefixOf, hpl, hkk]
                  rw [List.getElem?_append_right (by omega)]
                  simp [hri.pre, prefixOf, Op.on, hq]
                · rw [uses_eq, own_fresh _ _ _ hfr]
                · rw [ownMutators_eq, own_fresh _ _ _ hfr]
                · rw [own_fresh _ _ _ hfr]; rfl
                · rw [own_fresh _ _ _ hfr]; exact ⟨Wf.nil, List.Perm.refl _⟩
                · rw [own_fresh _ _ _ hfr]; rfl
                · refine (List.eq_nil_iff_forall_not_mem.2 ?_).symm
                  intro c hc
                  have := kids_gt hc
                  rw [hpl] at this
                  simp at this
                  omega
              | _ => simp [fresh] at hk
          · simp only [List.flatMap_append, List.foldl_append, List.flatMap_cons, List.flatMap_nil, List.append_nil]
            rw [hi.errs]
          · intro k d hd
            rw [own_snoc (routeItems ops) _ ops op k (fun o ho => routeItems_snoc ops op o (refs' o ho))] at hd
            rcases List.mem_append.1 hd with hd | hd
            · exact hi.parsed k d hd
            · split at hd
              · exact (hfine.2.1 d hd).1
              · simp at hd
          · intro k
            rw [own_snoc (catchItems ops) _ ops op k (fun o ho => catchItems_snoc ops op o (refs' o ho))]
            split
            · rename_i hk
              subst hk
              rw [List.map_append, List.nodup_append]
              refine ⟨hi.caught _, ?_, ?_⟩
              · cases op <;> simp [catchItems]
              · intro a ha b hb hab
                subst hab
                obtain ⟨d, hd, rfl⟩ := List.mem_map.1 hb
                exact hfine.2.2 d hd ha
            · simpa using hi.caught k

/-- The calls are possible exactly if each one is fine after those before it. -/
theorem run_isSome {w₀ : World m} (h0 : Empty w₀) (ops : List (Op m)) (op : Op m) :
    (run w₀ (ops ++ [op])).isSome = true ↔ (run w₀ ops).isSome = true ∧ Fine ops op := by
  rw [run_snoc]
  cases hr : run w₀ ops with
  | none => simp
  | some w =>
    have hi := run_inv h0 ops w hr
    simp only [Option.bind_some, Option.isSome_some, true_and]
    rw [step_eq]
    cases hrec : w.routers[op.on]? with
    | none =>
      have : ¬ op.on < (places ops).length := by
        rw [← hi.len]; intro hh; rw [List.getElem?_eq_getElem hh] at hrec; simp at hrec
      simp [Fine, this]
    | some rec =>
      have hon : op.on < (places ops).length := by
        rw [← hi.len]; exact (List.getElem?_eq_some_iff.1 hrec).1
      rw [Option.bind_some, Option.isSome_map, effect_isSome hon (hi.recs _ _ hrec)]

end Indigo.Router
