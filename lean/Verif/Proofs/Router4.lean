import Verif.Proofs.Router3

namespace Indigo.Router

open Indigo.Spec.Router

variable {m : Type → Type}

/-! ### Preparation of the tree of groups -/

/-- A prepared router. -/
structure Prep (ops : List (Op m)) (k : Nat) (rec : Rec m) : Prop where
  routes : Rep rec.registrar.routes (under wrD (routeItems ops) ops k)
  dyn : rec.registrar.isDynamic = (under wrD (routeItems ops) ops k).any (fun d => isDyn d.1.1)
  catchers : (rec.catchers.map (fun c => (c.Prefix, c.Handler))).Perm (under wrC (catchItems ops) ops k)

theorem prepareLoop_spec (env : Env m) (ops : List (Op m)) (child : Nat → Option (Rec m)) (M : Nat → List Mutator)
    (cs : List Nat)
    (hc : ∀ c ∈ cs, (∀ r, child c = some r → Prep ops c r ∧ r.mutators = M c) ∧
      ((child c).isSome = true ↔ ((under wrD (routeItems ops) ops c).map (·.1)).Nodup)) :
    ∀ (rec : Rec m) (L : List (Decl m)) (C : List (Bytes × Handler m)), Rep rec.registrar.routes L →
      rec.registrar.isDynamic = L.any (fun d => isDyn d.1.1) →
      (rec.catchers.map (fun c => (c.Prefix, c.Handler))).Perm C →
      (∀ r', prepareLoop env child rec cs = some r' →
        Rep r'.registrar.routes (L ++ cs.flatMap (under wrD (routeItems ops) ops)) ∧
        r'.registrar.isDynamic = (L ++ cs.flatMap (under wrD (routeItems ops) ops)).any (fun d => isDyn d.1.1) ∧
        (r'.catchers.map (fun c => (c.Prefix, c.Handler))).Perm (C ++ cs.flatMap (under wrC (catchItems ops) ops)) ∧
        r'.mutators = rec.mutators ++ cs.flatMap M ∧ r'.middlewares = rec.middlewares) ∧
      ((prepareLoop env child rec cs).isSome = true ↔
        ((L ++ cs.flatMap (under wrD (routeItems ops) ops)).map (·.1)).Nodup) := by
  induction cs with
  | nil =>
    intro rec L C h1 h2 h3
    refine ⟨?_, ?_⟩
    · rintro r' ⟨⟩
      simpa using ⟨h1, h2, h3⟩
    · simpa [prepareLoop] using h1.keys
  | cons c cs ih =>
    intro rec L C h1 h2 h3
    obtain ⟨hc1, hc2⟩ := hc c (by simp)
    simp only [prepareLoop, List.flatMap_cons]
    cases hch : child c with
    | none =>
      rw [hch] at hc2
      simp only [reduceCtorEq, false_implies, implies_true, true_and, Option.isSome_none, Bool.false_eq_true, false_iff]
      intro hn
      refine absurd (hc2.2 ?_) (by simp)
      rw [List.map_append, List.map_append] at hn
      exact (List.nodup_append.1 (List.nodup_append.1 hn).2.1).1
    | some rc =>
      obtain ⟨hp, hM⟩ := hc1 rc hch
      obtain ⟨m1, m2⟩ := merge_spec env rec.registrar rc.registrar _ _ h1 hp.routes
      simp only
      cases hm : rec.registrar.merge env rc.registrar with
      | none =>
        rw [hm] at m2
        simp only [reduceCtorEq, false_implies, implies_true, true_and, Option.isSome_none, Bool.false_eq_true,
          false_iff] at m2 ⊢
        intro hn
        apply m2
        rw [← List.append_assoc, List.map_append] at hn
        exact (List.nodup_append.1 hn).1
      | some reg =>
        obtain ⟨n1, n2⟩ := m1 reg hm
        have := ih (fun c' h' => hc c' (by simp [h']))
          { rec with registrar := reg, mutators := rec.mutators ++ rc.mutators, catchers := rec.catchers ++ rc.catchers }
          (L ++ under wrD (routeItems ops) ops c) (C ++ under wrC (catchItems ops) ops c) n1
          (by show reg.isDynamic = _; rw [n2, List.any_append, h2, hp.dyn])
          (by simp only [List.map_append]; exact h3.append hp.catchers)
        simpa [hM] using this

theorem wrD_append (a b : List (Middleware m)) (x : Decl m) : wrD (a ++ b) x = wrD a (wrD b x) := by
  simp [wrD, wrap_append]

theorem wrC_append (a b : List (Middleware m)) (x : Bytes × Handler m) : wrC (a ++ b) x = wrC a (wrC b x) := by
  simp [wrC, wrap_append]

theorem under_keys_perm (ops : List (Op m)) (href : ∀ op ∈ ops, op.on < (places ops).length) (k : Nat) :
    ((under wrD (routeItems ops) ops k).map (·.1)).Perm
      ((own (routeItems ops) ops k ++ (kids ops k).flatMap (under wrD (routeItems ops) ops)).map (·.1)) := by
  have := (under_perm wrD (routeItems ops) wrD_append ops href k).map (·.1)
  rw [List.map_map] at this
  exact this

theorem prepare_spec (env : Env m) {w₀ w : World m} {ops : List (Op m)} (hi : Inv w₀ ops w) :
    ∀ (fuel k : Nat), k < (places ops).length → (places ops).length - k ≤ fuel →
      (∀ r, prepare env w fuel k = some r → Prep ops k r ∧ r.mutators = mutatorsIn ops fuel k) ∧
      ((prepare env w fuel k).isSome = true ↔ ((under wrD (routeItems ops) ops k).map (·.1)).Nodup) := by
  intro fuel
  induction fuel with
  | zero => intro k hk hf; omega
  | succ fuel ih =>
    intro k hk hf
    simp only [prepare]
    cases hrec : w.routers[k]? with
    | none => rw [← hi.len] at hk; rw [List.getElem?_eq_getElem hk] at hrec; simp at hrec
    | some rec =>
      have hri := hi.recs k rec hrec
      simp only
      have hc : ∀ c ∈ rec.children, (∀ r, prepare env w fuel c = some r → Prep ops c r ∧ r.mutators = mutatorsIn ops fuel c) ∧
          ((prepare env w fuel c).isSome = true ↔ ((under wrD (routeItems ops) ops c).map (·.1)).Nodup) := by
        intro c hc
        rw [hri.children] at hc
        have := kids_gt hc
        exact ih c this.2 (by omega)
      obtain ⟨l1, l2⟩ := prepareLoop_spec env ops (prepare env w fuel) (mutatorsIn ops fuel) rec.children hc rec _ _
        hri.routes hri.dyn (by rw [hri.catchers])
      have hup := under_perm wrD (routeItems ops) wrD_append ops hi.refs k
      have hupC := under_perm wrC (catchItems ops) wrC_append ops hi.refs k
      have hkeys := (under_keys_perm ops hi.refs k).nodup_iff
      rw [hri.children, ← hkeys] at l2
      cases hl : prepareLoop env (prepare env w fuel) rec rec.children with
      | none =>
        rw [hri.children] at hl
        rw [hl] at l2
        simpa using l2
      | some rec' =>
        obtain ⟨a1, a2, a3, a4, a5⟩ := l1 rec' hl
        rw [hri.children] at hl
        rw [hl] at l2
        refine ⟨?_, by simpa using l2⟩
        rintro r ⟨⟩
        rw [hri.children] at a1 a2 a3 a4
        have hwr : (fun d : Decl m => (d.1, compose d.2 rec'.middlewares)) = wrD (uses ops k) := by
          funext d; rw [compose_eq_wrap, a5, hri.mws]; rfl
        refine ⟨⟨?_, ?_, ?_⟩, ?_⟩
        · have := a1.apply (fun h => compose h rec'.middlewares)
          rw [hwr] at this
          exact ⟨this.wf, this.perm.trans hup.symm⟩
        · show rec'.registrar.isDynamic = _
          rw [a2, Bool.eq_iff_iff, List.any_eq_true, List.any_eq_true]
          constructor
          · rintro ⟨d, hd, hx⟩
            exact ⟨wrD (uses ops k) d, hup.mem_iff.2 (List.mem_map_of_mem hd), hx⟩
          · rintro ⟨d, hd, hx⟩
            obtain ⟨d', hd', rfl⟩ := List.mem_map.1 (hup.mem_iff.1 hd)
            exact ⟨d', hd', hx⟩
        · refine List.Perm.trans ?_ hupC.symm
          have e : ((rec'.catchers.map (fun c : Catcher m => { c with Handler := compose c.Handler rec'.middlewares })).map
              (fun c => (c.Prefix, c.Handler))) =
              (rec'.catchers.map (fun c => (c.Prefix, c.Handler))).map (wrC (uses ops k)) := by
            rw [List.map_map, List.map_map]
            refine List.map_congr_left (fun c _ => ?_)
            simp [wrC, compose_eq_wrap, a5, hri.mws]
          show List.Perm _ _
          rw [e]
          exact a3.map _
        · show rec'.mutators = _
          rw [a4, hri.muts]; rfl

theorem lineOf_root {ops : List (Op m)} {r : Nat} (hr : r < (places ops).length) :
    ∃ rest, lineOf ops r = 0 :: rest ∧ after 0 (lineOf ops r) = some rest := by
  obtain ⟨p, hp⟩ : ∃ p, (places ops)[r]? = some p := ⟨_, List.getElem?_eq_getElem hr⟩
  obtain ⟨-, ⟨l, hl⟩, -⟩ := (places_ok ops).line r p hp
  have : lineOf ops r = 0 :: l := by simp [lineOf, hp, hl]
  exact ⟨l, this, by rw [this]; simp [after]⟩

theorem under_root_routes (ops : List (Op m)) (href : ∀ op ∈ ops, op.on < (places ops).length) :
    under wrD (routeItems ops) ops 0 = declared ops := by
  refine flatMap_congr ops (fun op hop => ?_)
  obtain ⟨rest, h1, h2⟩ := lineOf_root (href op hop)
  rw [seen, h2]
  simp only
  rw [← h1]
  cases op <;> simp [routeItems, wrD, around, lineOf, Op.on, wrap_append]

theorem under_root_catchers (ops : List (Op m)) (href : ∀ op ∈ ops, op.on < (places ops).length) :
    under wrC (catchItems ops) ops 0 = catchers ops := by
  refine flatMap_congr ops (fun op hop => ?_)
  obtain ⟨rest, h1, h2⟩ := lineOf_root (href op hop)
  rw [seen, h2]
  simp only
  rw [← h1]
  cases op <;> simp [catchItems, wrC, around, lineOf, Op.on, wrap_append]

theorem places_pos (ops : List (Op m)) : 0 < (places ops).length :=
  (List.getElem?_eq_some_iff.1 (places_ok ops).root).1

/-- Every route of a router belongs to some router. -/
theorem declared_own {ops : List (Op m)} {d : Decl m} (h : d ∈ declared ops) :
    ∃ k, d.1 ∈ (own (routeItems ops) ops k).map (·.1) := by
  simp only [declared, List.mem_flatMap] at h
  obtain ⟨op, hop, hd⟩ := h
  cases op with
  | route r meth path x mws =>
    simp at hd
    refine ⟨r, ?_⟩
    simp only [own, List.mem_map, List.mem_flatMap]
    exact ⟨_, ⟨_, hop, by simp [Op.on, routeItems]; rfl⟩, by rw [hd]⟩
  | _ => simp at hd

/-! ### Tables -/

/-- All endpoints of a static table: which methods they have. -/
def TableOk (R : GoMap Bytes (Endpoint m)) (ds : List (Decl m)) : Prop :=
  ∀ p, match R.get? p with
    | none => ∀ d ∈ ds, d.1.1 ≠ p
    | some e => (∃ d ∈ ds, d.1.1 = p) ∧ (∀ mt h, e.methodsMap mt = some h ↔ ((p, mt), h) ∈ ds) ∧
        e.allow = getAllowString e.methodsMap

theorem tableOk_add (R : GoMap Bytes (Endpoint m)) (ds : List (Decl m)) (d : Decl m) (h : TableOk R ds)
    (hn : d.1 ∉ ds.map (·.1)) : TableOk (routesMapAdd R d.1.1 d.1.2 d.2) (ds ++ [d]) := by
  obtain ⟨⟨p, mt⟩, x⟩ := d
  intro q
  simp only [routesMapAdd]
  rw [GoMap.get?_set]
  by_cases hq : p = q
  · subst hq
    rw [if_pos rfl]
    refine ⟨⟨((p, mt), x), by simp, rfl⟩, ?_, rfl⟩
    intro mt' h'
    have hold : ((R.get? p).getD {}).methodsMap mt' = some h' ↔ ((p, mt'), h') ∈ ds := by
      have := h p
      cases hr : R.get? p with
      | none =>
        rw [hr] at this
        simp only [Option.getD_none, reduceCtorEq, false_iff]
        exact fun hh => this _ hh rfl
      | some e => rw [hr] at this; exact this.2.1 mt' h'
    simp only [MethodsMap.set, List.mem_append, List.mem_singleton, Prod.mk.injEq, true_and]
    by_cases hm : mt' = mt
    · subst hm
      simp only [if_true, true_and, Option.some.injEq]
      constructor
      · rintro rfl; exact Or.inr rfl
      · rintro (hh | rfl)
        · exact absurd (List.mem_map_of_mem (f := (·.1)) hh) hn
        · rfl
    · simp only [hm, if_false, false_and, or_false]
      exact hold
  · rw [if_neg hq]
    have := h q
    cases hr : R.get? q with
    | none =>
      rw [hr] at this
      intro d hd
      rcases List.mem_append.1 hd with hd | hd
      · exact this d hd
      · simp at hd; subst hd; exact hq
    | some e =>
      rw [hr] at this
      refine ⟨?_, ?_, this.2.2⟩
      · obtain ⟨d, hd, hdq⟩ := this.1
        exact ⟨d, by simp [hd], hdq⟩
      · intro mt' h'
        rw [this.2.1, List.mem_append]
        constructor
        · exact Or.inl
        · rintro (hh | hh)
          · exact hh
          · simp at hh; exact absurd hh.1.1.symm hq

theorem tableOk_foldl (es : List (Decl m)) : ∀ (R : GoMap Bytes (Endpoint m)) (ds : List (Decl m)), TableOk R ds →
    ((ds ++ es).map (·.1)).Nodup →
    TableOk (es.foldl (fun R d => routesMapAdd R d.1.1 d.1.2 d.2) R) (ds ++ es) := by
  induction es with
  | nil => intro R ds h _; simpa using h
  | cons d es ih =>
    intro R ds h hn
    rw [List.foldl_cons]
    have := ih (routesMapAdd R d.1.1 d.1.2 d.2) (ds ++ [d]) (tableOk_add R ds d h ?_) (by simpa using hn)
    · simpa using this
    · intro hh
      rw [List.map_append, List.nodup_append] at hn
      exact hn.2.2 _ hh _ (by simp) rfl

theorem tableOk_perm {R : GoMap Bytes (Endpoint m)} {ds ds' : List (Decl m)} (h : TableOk R ds) (hp : ds.Perm ds') :
    TableOk R ds' := by
  intro p
  have := h p
  cases hr : R.get? p with
  | none => rw [hr] at this; exact fun d hd => this d (hp.mem_iff.2 hd)
  | some e =>
    rw [hr] at this
    obtain ⟨⟨d, hd, hdp⟩, h2, h3⟩ := this
    exact ⟨⟨d, hp.mem_iff.1 hd, hdp⟩, fun mt h => (h2 mt h).trans hp.mem_iff, h3⟩

theorem asMap_ok (env : Env m) (r : Registrar m) (L : List (Decl m)) (h : Rep r.routes L) : TableOk (asMap env r) L := by
  have e : asMap env r = ((env.routes r.routes).flatMap (fun e => (env.methods e.2).map (fun x => ((e.1, x.1), x.2)))).foldl
      (fun R (d : Decl m) => routesMapAdd R d.1.1 d.1.2 d.2) [] := by
    rw [asMap, List.foldl_flatMap]
    congr 1
    funext R e
    rw [List.foldl_map]
  have hp := (flat_perm_env env r.routes).trans h.perm
  rw [e]
  refine tableOk_perm ?_ hp
  have := tableOk_foldl ((env.routes r.routes).flatMap (fun e => (env.methods e.2).map (fun x => ((e.1, x.1), x.2)))) []
    ([] : List (Decl m)) (by intro p; simp [GoMap.get?]) (by
      rw [List.nil_append]
      exact (hp.map _).nodup_iff.2 h.keys)
  simpa using this

/-- The endpoints of a tree. -/
structure TreeOk (L : List (Bytes × Endpoint m)) (ds : List (Decl m)) : Prop where
  nodup : (L.map (·.1)).Nodup
  methods : ∀ p e, (p, e) ∈ L → ∀ mt h, e.methodsMap mt = some h ↔ ((p, mt), h) ∈ ds
  allow : ∀ p e, (p, e) ∈ L → ∃ ms : List Method, ms.Nodup ∧ ms ≠ [] ∧ (∀ mt, mt ∈ ms ↔ (e.methodsMap mt).isSome = true) ∧
    e.allow = trimSuffixComma (ms.flatMap (fun x => x.toBytes ++ [COMMA]))
  complete : ∀ d ∈ ds, ∃ e, (d.1.1, e) ∈ L
  sound : ∀ p e, (p, e) ∈ L → ∃ d ∈ ds, d.1.1 = p

theorem foldl_methods (l : List (Method × Handler m)) (hn : (l.map (·.1)).Nodup) (mm : MethodsMap m) (mt : Method)
    (h : Handler m) : (l.foldl (fun mm h => MethodsMap.set mm h.1 h.2) mm) mt = some h ↔
      (mt, h) ∈ l ∨ (mt ∉ l.map (·.1) ∧ mm mt = some h) := by
  induction l generalizing mm with
  | nil => simp
  | cons x l ih =>
    obtain ⟨a, b⟩ := x
    simp only [List.map_cons, List.nodup_cons] at hn
    rw [List.foldl_cons, ih hn.2]
    simp only [MethodsMap.set, List.mem_cons, Prod.mk.injEq, List.map_cons, not_or]
    by_cases ha : mt = a
    · subst ha
      simp only [if_true, true_and, Option.some.injEq, not_true_eq_false, false_and, or_false]
      constructor
      · rintro (hh | ⟨-, rfl⟩)
        · exact Or.inr hh
        · exact Or.inl rfl
      · rintro (rfl | hh)
        · exact Or.inr ⟨hn.1, rfl⟩
        · exact Or.inl hh
    · simp [ha]

theorem tree_ok (env : Env m) (r : Registrar m) (L : List (Decl m)) (h : Rep r.routes L) :
    TreeOk ((env.routes r.routes).map (fun e => (e.1, treePayload env e.2))) L := by
  have hmeth : ∀ p v, (p, v) ∈ r.routes → ∀ mt x, (treePayload env v).methodsMap mt = some x ↔ ((p, mt), x) ∈ L := by
    intro p v hv mt x
    have hnd : ((env.methods v).map (·.1)).Nodup := ((env.methods_perm v).map _).nodup_iff.2 (h.wf.methods _ hv).1
    simp only [treePayload]
    rw [foldl_methods _ hnd, ← h.perm.mem_iff, mem_flat]
    simp only [reduceCtorEq, and_false, or_false, (env.methods_perm v).mem_iff]
    constructor
    · intro hh; exact ⟨v, hv, hh⟩
    · rintro ⟨v', hv', hh⟩
      have e1 := GoMap.get?_of_mem _ h.wf.paths hv
      have e2 := GoMap.get?_of_mem _ h.wf.paths hv'
      rw [e1] at e2
      cases e2
      exact hh
  have hmem : ∀ p e, (p, e) ∈ (env.routes r.routes).map (fun e => (e.1, treePayload env e.2)) →
      ∃ v, (p, v) ∈ r.routes ∧ e = treePayload env v := by
    intro p e he
    obtain ⟨⟨p', v⟩, hv, heq⟩ := List.mem_map.1 he
    simp only [Prod.mk.injEq] at heq
    obtain ⟨rfl, rfl⟩ := heq
    exact ⟨v, (env.routes_perm _).mem_iff.1 hv, rfl⟩
  refine ⟨?_, ?_, ?_, ?_, ?_⟩
  · rw [List.map_map]
    exact ((env.routes_perm r.routes).map _).nodup_iff.2 h.wf.paths
  · intro p e he
    obtain ⟨v, hv, rfl⟩ := hmem p e he
    exact hmeth p v hv
  · intro p e he
    obtain ⟨v, hv, rfl⟩ := hmem p e he
    have hw := h.wf.methods _ hv
    refine ⟨(env.methods v).map (·.1), ((env.methods_perm v).map _).nodup_iff.2 hw.1, ?_, ?_, ?_⟩
    · intro hh
      have := (env.methods_perm v).length_eq
      rw [List.map_eq_nil_iff] at hh
      rw [hh] at this
      exact hw.2 (List.length_eq_zero_iff.1 this.symm)
    · intro mt
      rw [Option.isSome_iff_exists]
      simp only [hmeth p v hv, ← h.perm.mem_iff, mem_flat, ((env.methods_perm v).map (·.1)).mem_iff]
      constructor
      · intro hh
        obtain ⟨⟨a, b⟩, hab, rfl⟩ := List.mem_map.1 hh
        exact ⟨b, v, hv, hab⟩
      · rintro ⟨b, v', hv', hb⟩
        have e1 := GoMap.get?_of_mem _ h.wf.paths hv
        have e2 := GoMap.get?_of_mem _ h.wf.paths hv'
        rw [e1] at e2
        cases e2
        exact List.mem_map_of_mem (f := (·.1)) hb
    · simp only [treePayload]
      rw [List.flatMap_map]
  · intro d hd
    rw [← h.perm.mem_iff, mem_flat] at hd
    obtain ⟨v, hv, -⟩ := hd
    exact ⟨treePayload env v, List.mem_map.2 ⟨(d.1.1, v), (env.routes_perm _).mem_iff.2 hv, rfl⟩⟩
  · intro p e he
    obtain ⟨v, hv, rfl⟩ := hmem p e he
    cases hv' : v with
    | nil => exact absurd hv' (h.wf.methods _ hv).2
    | cons x xs =>
      refine ⟨((p, x.1), x.2), ?_, rfl⟩
      rw [← h.perm.mem_iff, mem_flat]
      exact ⟨v, hv, by rw [hv']; simp⟩

/-! ### Allow -/

theorem allowLoop_eq (mm : MethodsMap m) (l : List Method) :
    allowLoop mm l = (l.filter (fun i => (mm i).isSome)).flatMap (fun i => i.toBytes ++ [COMMA]) := by
  induction l with
  | nil => rfl
  | cons i l ih =>
    simp only [allowLoop, List.filter_cons]
    cases hi : mm i <;> simp [ih]

theorem commas_append (x : Bytes) (xs : List Bytes) :
    commas (x :: xs) ++ [COMMA] = (x :: xs).flatMap (fun i => i ++ [COMMA]) := by
  induction xs generalizing x with
  | nil => simp [commas]
  | cons y xs ih => rw [List.flatMap_cons, ← ih y]; simp [commas]

theorem commas_last (x : Bytes) (xs : List Bytes) (h : ∀ y ∈ x :: xs, ∃ a b, y = a ++ [b] ∧ b ≠ COMMA) :
    ∃ a b, commas (x :: xs) = a ++ [b] ∧ b ≠ COMMA := by
  induction xs generalizing x with
  | nil => exact h x (by simp)
  | cons y xs ih =>
    obtain ⟨a, b, hab, hb⟩ := ih y (fun z hz => h z (List.mem_cons_of_mem _ hz))
    exact ⟨x ++ COMMA :: a, b, by simp [commas] at hab ⊢; rw [hab], hb⟩

theorem method_last (i : Method) : ∃ a b, i.toBytes = a ++ [b] ∧ b ≠ COMMA := by
  refine ⟨i.toBytes.dropLast, i.toBytes.getLast (by cases i <;> decide), (List.dropLast_concat_getLast _).symm, ?_⟩
  cases i <;> decide

theorem allow_eq (mm : MethodsMap m) :
    getAllowString mm = commas ((allMethods.filter (fun i => (mm i).isSome)).map Method.toBytes) := by
  rw [getAllowString, allowLoop_eq]
  cases hl : allMethods.filter (fun i => (mm i).isSome) with
  | nil => rfl
  | cons i l =>
    have e : (i :: l).flatMap (fun i => i.toBytes ++ [COMMA]) = commas ((i :: l).map Method.toBytes) ++ [COMMA] := by
      rw [List.map_cons, commas_append, ← List.map_cons, List.flatMap_map]
    rw [e]
    obtain ⟨a, b, hab, hb⟩ := commas_last i.toBytes (l.map Method.toBytes) (by
      intro y hy
      rw [← List.map_cons] at hy
      obtain ⟨j, -, rfl⟩ := List.mem_map.1 hy
      exact method_last j)
    rw [List.map_cons, hab]
    simp [hb]

theorem trim_commas (ms : List Method) (hne : ms ≠ []) :
    trimSuffixComma (ms.flatMap (fun x => x.toBytes ++ [COMMA])) = commas (ms.map Method.toBytes) := by
  cases ms with
  | nil => exact absurd rfl hne
  | cons i l =>
    have e : (i :: l).flatMap (fun i => i.toBytes ++ [COMMA]) = commas ((i :: l).map Method.toBytes) ++ [COMMA] := by
      rw [List.map_cons, commas_append, ← List.map_cons, List.flatMap_map]
    rw [e]
    simp [trimSuffixComma]

/-! ### Error handlers -/

theorem lastFor_append {α : Type} (l l' : List (Status.Code × α)) (c : Status.Code) :
    lastFor (l ++ l') c = (lastFor l' c).or (lastFor l c) := by
  simp only [lastFor, List.reverse_append, List.find?_append]
  cases l'.reverse.find? (fun e => e.1 = c) <;> simp

theorem get?_foldl_set {α : Type} (l : List (Status.Code × α)) (mm : GoMap Status.Code α) (c : Status.Code) :
    (l.foldl (fun hs e => hs.set e.1 e.2) mm).get? c = (lastFor l c).or (mm.get? c) := by
  induction l using snoc_induction with
  | nil => rfl
  | snoc l e ih =>
    rw [List.foldl_append, List.foldl_cons, List.foldl_nil, GoMap.get?_set, ih, lastFor_append]
    by_cases h : e.1 = c
    · simp [lastFor, h]
    · simp [lastFor, h]

theorem get?_map {κ α β : Type} [DecidableEq κ] (mm : GoMap κ α) (f : α → β) (k : κ) :
    GoMap.get? (mm.map (fun e => (e.1, f e.2))) k = (mm.get? k).map f := by
  induction mm with
  | nil => rfl
  | cons e mm ih =>
    obtain ⟨a, b⟩ := e
    simp only [List.map_cons, GoMap.get?]
    split
    · rfl
    · exact ih

theorem lastFor_map {α β : Type} (l : List (Status.Code × α)) (f : α → β) (c : Status.Code) :
    lastFor (l.map (fun e => (e.1, f e.2))) c = (lastFor l c).map f := by
  rw [lastFor, lastFor, ← List.map_reverse, List.find?_map]
  rw [Option.map_map, Option.map_map]
  rfl

/-! ### The whole construction -/

/-- What is in the router in the end. -/
structure Built (F : Fold) (text : GoErr → Bytes) [Monad m] (ops : List (Op m)) (rt : Runtime m) : Prop where
  mutators : rt.mutators = mutatorsIn ops (places ops).length 0
  catchers : (rt.catchers.map (fun c => (c.Prefix, c.Handler))).Perm (catchers ops)
  sorted : rt.catchers.Pairwise (fun a b => a.Prefix.length ≥ b.Prefix.length)
  buff : rt.traceBuff = []
  errs : ∀ c, rt.errHandlers.get? c = lastFor (errorHandlers (defaults F text) ops) c
  static : (∀ d ∈ declared ops, isDyn d.1.1 = false) → ∃ R, rt.table = .static R ∧ TableOk R (declared ops)
  dynamic : (∃ d ∈ declared ops, isDyn d.1.1 = true) → ∃ tree L, rt.table = .dynamic tree ∧
    Radix.Node.register (Radix.Node.new {}) L = .ok tree ∧ TreeOk L (declared ops)
  nodup : ((declared ops).map (·.1)).Nodup
  parsed : ∀ d ∈ declared ops, ∃ t, Radix.parse d.1.1 = .ok t
  refs : ∀ op ∈ ops, op.on < (places ops).length

section
variable [Monad m]

theorem newWorld_empty (F : Fold) (text : GoErr → Bytes) : Empty (newWorld (m := m) F text) := rfl

theorem defaultAll_eq (text : GoErr → Bytes) (req : Request) : (match req.Env.Error with
    | none => Fields.new
    | some (.http e) => { Fields.new with Code := e.Code }
    | some e => { Fields.new with Code := 500, Body := text e }) = Fields.new.error text req.Env.Error [] := by
  cases h : req.Env.Error with
  | none => rfl
  | some e => cases e <;> rfl

theorem allowHeader_eq (F : Fold) (f : Fields) (v : Bytes) : f.header F b!"Allow" [v] = some { f with Headers := f.Headers ++ [⟨b!"Allow", v⟩] } := by
  have ne : ∀ k : Bytes, k.length ≠ 5 → F.eq b!"Allow" k = false := by
    intro k hk
    unfold Fold.eq
    rw [beq_eq_false_iff_ne]
    intro e
    have := congrArg List.length e
    simp only [List.length_map] at this
    exact hk this.symm
  unfold Fields.header
  rw [ne _ (by decide), ne _ (by decide)]
  rfl

/-- The handlers routers begin with are the ones described. -/
theorem defaults_eq (F : Fold) (text : GoErr → Bytes) : (newWorld (m := m) F text).errHandlers = defaults F text := by
  have h1 : (fun req => pure (Fields.new.error text req.Env.Error [], req) : Handler m) = fun req => pure (match req.Env.Error with
      | none => Fields.new
      | some (.http e) => { Fields.new with Code := e.Code }
      | some e => { Fields.new with Code := 500, Body := text e }, req) := by
    funext req; rw [defaultAll_eq]
  have h2 : (defaultMethodNotAllowedHandler F text : Handler m) =
      fun req => pure ({ Fields.new with Code := 405, Headers := [⟨b!"Allow", req.Env.AllowedMethods⟩] }, req) := by
    funext req
    simp only [defaultMethodNotAllowedHandler, allowHeader_eq]
    rfl
  simp only [newWorld, h2]
  exact congrArg (fun h => [(AllErrors, h), (Status.MethodNotAllowed, _)]) h1

theorem initErrs (F : Fold) (text : GoErr → Bytes) {ops : List (Op m)} {w : World m} {root : Rec m}
    (hi : Inv (newWorld F text) ops w) (hroot : w.routers[0]? = some root) (c : Status.Code) :
    GoMap.get? (w.errHandlers.map (fun e => (e.1, compose e.2 root.middlewares))) c = lastFor (errorHandlers (defaults F text) ops) c := by
  have e1 : errorHandlers (defaults F text) ops =
      (defaults F text ++ ops.flatMap errItems).map (fun e : Status.Code × Handler m => (e.1, wrap (uses ops 0) e.2)) := by
    rw [errorHandlers]
    congr 2
  rw [get?_map w.errHandlers (fun h => compose h root.middlewares), e1, lastFor_map, lastFor_append, hi.errs,
    get?_foldl_set, (hi.recs 0 root hroot).mws]
  have e2 : (newWorld F text).errHandlers.get? c = lastFor (defaults (m := m) F text) c := by
    rw [defaults_eq]
    simp only [defaults, GoMap.get?, lastFor, List.reverse_cons, List.reverse_nil, List.nil_append,
      List.cons_append, List.find?_cons]
    by_cases h0 : (0 : Status.Code) = c
    · subst h0; rfl
    · by_cases h1 : (405 : Status.Code) = c <;> simp [h0, h1]
  rw [e2]
  congr 1
  funext h
  exact compose_eq_wrap h _

theorem built (F : Fold) (text : GoErr → Bytes) (env : Env m) (ops : List (Op m)) (rt : Runtime m)
    (h : (run (newWorld F text) ops).bind (initRouter env) = some rt) : Built F text ops rt := by
  cases hr : run (newWorld F text) ops with
  | none => rw [hr] at h; simp at h
  | some w =>
    rw [hr, Option.bind_some] at h
    have hi := run_inv (newWorld_empty F text) ops w hr
    simp only [initRouter] at h
    cases hroot : w.routers[0]? with
    | none => rw [hroot] at h; simp at h
    | some root =>
      rw [hroot] at h
      simp only at h
      obtain ⟨p1, p2⟩ := prepare_spec env hi w.routers.length 0 (places_pos ops) (by rw [hi.len]; omega)
      cases hp : prepare env w w.routers.length 0 with
      | none => rw [hp] at h; simp at h
      | some rec =>
        rw [hp] at h p2
        simp only [under_root_routes ops hi.refs, Option.isSome_some, true_iff] at p2
        obtain ⟨q, qm⟩ := p1 rec hp
        have qr := q.routes
        have qd := q.dyn
        have qc := q.catchers
        rw [under_root_routes ops hi.refs] at qr qd
        rw [under_root_catchers ops hi.refs] at qc
        have hparsed : ∀ d ∈ declared ops, ∃ t, Radix.parse d.1.1 = .ok t := by
          intro d hd
          obtain ⟨k, hk⟩ := declared_own hd
          obtain ⟨d', hd', he⟩ := List.mem_map.1 hk
          rw [← he]
          exact hi.parsed k d' hd'
        have hcp : ((env.sort rec.catchers).map (fun c => (c.Prefix, c.Handler))).Perm (catchers ops) :=
          ((env.sort_perm _).map _).trans qc
        rw [hi.len] at qm
        simp only at h
        split at h
        · rename_i hd
          cases ht : asRadixTree env rec.registrar with
          | none => rw [ht] at h; simp at h
          | some tree =>
            rw [ht] at h
            simp only [Option.some.injEq] at h
            subst h
            refine ⟨qm, hcp, env.sort_sorted _, rfl, initErrs F text hi hroot, ?_, ?_, p2, hparsed, hi.refs⟩
            · intro hs
              rw [qd, List.any_eq_true] at hd
              obtain ⟨d, hd1, hd2⟩ := hd
              rw [hs d hd1] at hd2
              simp at hd2
            · intro _
              refine ⟨tree, _, rfl, ?_, tree_ok env _ _ qr⟩
              simp only [asRadixTree] at ht
              split at ht
              · simp at ht
              · rename_i t' hreg
                simp only [Option.some.injEq] at ht
                rw [← ht]; exact hreg
        · rename_i hd
          simp only [Option.some.injEq] at h
          subst h
          refine ⟨qm, hcp, env.sort_sorted _, rfl, initErrs F text hi hroot, fun _ => ⟨_, rfl, asMap_ok env _ _ qr⟩, ?_,
            p2, hparsed, hi.refs⟩
          rintro ⟨d, hd1, hd2⟩
          refine absurd ?_ hd
          rw [qd, List.any_eq_true]
          exact ⟨d, hd1, hd2⟩

end
end Indigo.Router
