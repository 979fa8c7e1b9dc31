import Verif.Proofs.Router4

namespace Indigo.Router

open Indigo.Spec.Router

variable {m : Type → Type}

/-! ### Which constructions succeed -/

theorem places_length_le (ops : List (Op m)) (op : Op m) :
    (places ops).length ≤ (places (ops ++ [op])).length := by
  rw [places_snoc]
  cases op with
  | group r p =>
    simp only
    cases (places ops)[r]? <;> simp
  | _ => exact Nat.le_refl _

theorem wellReferenced_snoc (ops : List (Op m)) (op : Op m) :
    WellReferenced (ops ++ [op]) ↔ WellReferenced ops ∧ op.on < (places ops).length := by
  constructor
  · intro h
    refine ⟨?_, h ops op [] rfl⟩
    intro b o a e
    exact h b o (a ++ [op]) (by rw [e]; simp)
  · rintro ⟨h1, h2⟩ b o a e
    rcases List.eq_nil_or_concat a with rfl | ⟨a', z, rfl⟩
    · have := List.append_inj' e rfl
      simp at this
      rw [← this.1, ← this.2]
      exact h2
    · refine h1 b o a' ?_
      have : ops ++ [op] = (b ++ o :: a') ++ [z] := by rw [e]; simp
      exact (List.append_inj' this rfl).1

theorem wellReferenced_refs (ops : List (Op m)) (h : WellReferenced ops) :
    ∀ op ∈ ops, op.on < (places ops).length := by
  induction ops using snoc_induction with
  | nil => simp
  | snoc ops op ih =>
    obtain ⟨h1, h2⟩ := (wellReferenced_snoc ops op).1 h
    intro o ho
    refine Nat.lt_of_lt_of_le ?_ (places_length_le ops op)
    rcases List.mem_append.1 ho with ho | ho
    · exact ih h1 o ho
    · simp at ho; rw [ho]; exact h2

theorem run_wellReferenced {w₀ : World m} (h0 : Empty w₀) (ops : List (Op m)) (h : (run w₀ ops).isSome = true) :
    WellReferenced ops := by
  induction ops using snoc_induction with
  | nil => intro b o a e; simp at e
  | snoc ops op ih =>
    obtain ⟨h1, h2⟩ := (run_isSome h0 ops op).1 h
    exact (wellReferenced_snoc ops op).2 ⟨ih h1, h2.1⟩

theorem declared_keys (ops : List (Op m)) : (declared ops).map (·.1) = (ops.flatMap (routeItems ops)).map (·.1) := by
  rw [declared, List.map_flatMap, List.map_flatMap]
  refine flatMap_congr ops (fun op _ => ?_)
  cases op <;> rfl

theorem keys_snoc (ops : List (Op m)) (op : Op m) (h : WellReferenced (ops ++ [op])) :
    (declared (ops ++ [op])).map (·.1) = (declared ops).map (·.1) ++ (routeItems ops op).map (·.1) := by
  obtain ⟨h1, h2⟩ := (wellReferenced_snoc ops op).1 h
  have refs := refs_snoc h2 (wellReferenced_refs ops h1)
  rw [declared_keys, declared_keys, ← List.map_append]
  have : (ops ++ [op]).flatMap (routeItems (ops ++ [op])) = (ops ++ [op]).flatMap (routeItems ops) :=
    flatMap_congr _ (fun o ho => routeItems_snoc ops op o (refs o ho))
  rw [this, List.flatMap_append]
  simp

theorem ownCatcherPaths_eq (ops : List (Op m)) (k : Nat) :
    ownCatcherPaths ops k = (own (catchItems ops) ops k).map (·.1) := by
  rw [own, ownCatcherPaths, List.map_flatMap]
  refine flatMap_congr ops (fun op _ => ?_)
  by_cases hk : op.on = k <;> cases op <;> simp only [Op.on] at hk <;> simp [catchItems, Op.on, hk]

theorem own_sublist_keys (ops : List (Op m)) (k : Nat) :
    ((own (routeItems ops) ops k).map (·.1)).Sublist ((declared ops).map (·.1)) := by
  rw [declared_keys]
  refine List.Sublist.map _ ?_
  rw [own]
  generalize hg : routeItems ops = g
  clear hg
  induction ops with
  | nil => simp
  | cons op ops ih =>
    rw [List.flatMap_cons, List.flatMap_cons]
    refine List.Sublist.append ?_ ih
    split
    · exact List.Sublist.refl _
    · exact List.nil_sublist _

/-- Calls which do not contradict each other are possible. -/
theorem run_accepts {w₀ : World m} (h0 : Empty w₀) (ops : List (Op m)) (h1 : WellReferenced ops)
    (h2 : ∀ d ∈ declared ops, ∃ t, Radix.parse d.1.1 = .ok t) (h3 : ((declared ops).map (·.1)).Nodup)
    (h4 : ∀ k, (ownCatcherPaths ops k).Nodup) : (run w₀ ops).isSome = true := by
  induction ops using snoc_induction with
  | nil => rfl
  | snoc ops op ih =>
    obtain ⟨a1, a2⟩ := (wellReferenced_snoc ops op).1 h1
    have refs := refs_snoc a2 (wellReferenced_refs ops a1)
    have hk := keys_snoc ops op h1
    rw [hk] at h3
    have hparse : ∀ x ∈ (declared (ops ++ [op])).map (·.1), ∃ t, Radix.parse x.1 = .ok t := by
      intro x hx
      obtain ⟨d, hd, rfl⟩ := List.mem_map.1 hx
      exact h2 d hd
    rw [hk] at hparse
    have hcat : ∀ k, (ownCatcherPaths ops k ++ if op.on = k then (catchItems ops op).map (·.1) else []).Nodup := by
      intro k
      have := h4 k
      rw [ownCatcherPaths_eq, own_snoc (catchItems ops) _ ops op k (fun o ho => catchItems_snoc ops op o (refs o ho)),
        List.map_append, ← ownCatcherPaths_eq] at this
      by_cases hk : op.on = k
      · rw [if_pos hk] at this ⊢; exact this
      · rw [if_neg hk] at this ⊢; exact this
    rw [run_isSome h0]
    refine ⟨ih a1 ?_ (List.nodup_append.1 h3).1 (fun k => (List.nodup_append.1 (hcat k)).1), a2, ?_, ?_⟩
    · intro d hd
      exact hparse d.1 (List.mem_append_left _ (List.mem_map_of_mem hd))
    · intro d hd
      have hd' : d.1 ∈ (routeItems ops op).map (·.1) := List.mem_map_of_mem hd
      refine ⟨hparse d.1 (List.mem_append_right _ hd'), ?_⟩
      intro hh
      exact (List.nodup_append.1 h3).2.2 _ ((own_sublist_keys ops op.on).subset hh) _ hd' rfl
    · intro d hd hh
      have := hcat op.on
      rw [if_pos rfl, ownCatcherPaths_eq] at this
      exact (List.nodup_append.1 this).2.2 _ hh _ (List.mem_map_of_mem hd) rfl

section
variable [Monad m]

/-- The conditions for a successful construction which do not concern the tree. -/
structure Sound (ops : List (Op m)) : Prop where
  refs : WellReferenced ops
  parsed : ∀ d ∈ declared ops, ∃ t, Radix.parse d.1.1 = .ok t
  nodup : ((declared ops).map (·.1)).Nodup
  caught : ∀ k, (ownCatcherPaths ops k).Nodup

theorem build_sound (F : Fold) (text : GoErr → Bytes) (env : Env m) (ops : List (Op m))
    (h : ((run (newWorld F text) ops).bind (initRouter env)).isSome = true) : Sound ops := by
  obtain ⟨rt, hrt⟩ := Option.isSome_iff_exists.1 h
  have hb := built F text env ops rt hrt
  cases hr : run (newWorld F text) ops with
  | none => rw [hr] at hrt; simp at hrt
  | some w =>
    refine ⟨run_wellReferenced (newWorld_empty F text) ops (by rw [hr]; rfl), hb.parsed, hb.nodup, ?_⟩
    intro k
    rw [ownCatcherPaths_eq]
    exact (run_inv (newWorld_empty F text) ops w hr).caught k

theorem build_isSome (F : Fold) (text : GoErr → Bytes) (env : Env m) (ops : List (Op m)) (hs : Sound ops) :
    ∃ L : List (Bytes × Endpoint m), TreeOk L (declared ops) ∧
      (((run (newWorld F text) ops).bind (initRouter env)).isSome = true ↔
      ((∃ d ∈ declared ops, isDyn d.1.1 = true) → ∃ tree, Radix.Node.register (Radix.Node.new {}) L = .ok tree)) := by
  obtain ⟨h1, h2, h3, h4⟩ := hs
  obtain ⟨w, hr⟩ := Option.isSome_iff_exists.1 (run_accepts (newWorld_empty F text) ops h1 h2 h3 h4)
  rw [hr, Option.bind_some]
  have hi := run_inv (newWorld_empty F text) ops w hr
  simp only [initRouter]
  obtain ⟨root, hroot⟩ : ∃ root, w.routers[0]? = some root :=
    ⟨_, List.getElem?_eq_getElem (by rw [hi.len]; exact places_pos ops)⟩
  rw [hroot]
  simp only
  obtain ⟨p1, p2⟩ := prepare_spec env hi w.routers.length 0 (places_pos ops) (by rw [hi.len]; omega)
  rw [under_root_routes ops hi.refs] at p2
  obtain ⟨rec, hrec⟩ := Option.isSome_iff_exists.1 (p2.2 h3)
  obtain ⟨q, -⟩ := p1 rec hrec
  have qr := q.routes
  have qd := q.dyn
  rw [under_root_routes ops hi.refs] at qr qd
  rw [hrec]
  simp only
  refine ⟨_, tree_ok env _ _ qr, ?_⟩
  split
  · rename_i hd
    rw [qd, List.any_eq_true] at hd
    simp only [hd, true_implies, asRadixTree]
    cases Radix.Node.register (Radix.Node.new {}) ((env.routes rec.registrar.routes).map
      (fun e => (e.1, treePayload env e.2))) <;> simp
  · rename_i hd
    rw [qd, List.any_eq_true] at hd
    simp only [Option.isSome_some, true_iff]
    exact fun hh => absurd hh hd

end

/-! ### Templates without variables -/

theorem parseLoop_static' (state : Radix.PState) (hst : state = .eStatic ∨ state = .eSlash) (cs cur : Bytes)
    (segs : Radix.Template) (h : (123 : Byte) ∉ cs) (hs : Radix.isStatic segs = true) :
    ∃ t, Radix.parseLoop state cur segs cs = .ok t ∧ Radix.isStatic t = true := by
  have happ : ∀ (segs : Radix.Template) s, Radix.isStatic segs = true → Radix.isStatic (segs ++ [⟨s, false⟩]) = true := by
    intro segs s
    induction segs with
    | nil => intro _; rfl
    | cons a b ih =>
      simp only [List.cons_append, Radix.isStatic]
      split
      · simp
      · exact ih
  induction cs generalizing state cur segs with
  | nil =>
    rw [Radix.parseLoop]
    split
    · exact ⟨_, rfl, happ _ _ hs⟩
    · exact ⟨_, rfl, hs⟩
  | cons c cs ih =>
    simp only [List.mem_cons, not_or] at h
    have hc : ¬ c = 123 := fun e => h.1 e.symm
    rcases hst with rfl | rfl
    · rw [Radix.parseLoop, if_neg hc]
      split
      · exact ih _ (Or.inr rfl) _ _ h.2 (happ _ _ hs)
      · exact ih _ (Or.inl rfl) _ _ h.2 hs
    · rw [Radix.parseLoop, if_neg hc]
      split
      · exact ih _ (Or.inr rfl) _ _ h.2 hs
      · exact ih _ (Or.inl rfl) _ _ h.2 hs

/-- A path without braces is accepted if it starts with a slash, and has no variables. -/
theorem parse_static (p : Bytes) (h : (123 : Byte) ∉ p) :
    ((∃ t, Radix.parse p = .ok t) ↔ p.head? = some SLASH) ∧ isDyn p = false := by
  cases p with
  | nil => simp [Radix.parse, isDyn]
  | cons c cs =>
    simp only [List.mem_cons, not_or] at h
    by_cases hc : c = SLASH
    · obtain ⟨t, ht, hst⟩ := parseLoop_static' .eStatic (Or.inl rfl) cs [] [] h.2 rfl
      have : Radix.parse (c :: cs) = .ok t := by simp only [Radix.parse]; rw [if_neg (by simp [hc])]; exact ht
      refine ⟨⟨fun _ => by rw [hc]; rfl, fun _ => ⟨t, this⟩⟩, ?_⟩
      rw [isDyn, this]
      simp [hst]
    · have : Radix.parse (c :: cs) = .error .noLeadingSlash := by simp only [Radix.parse]; rw [if_pos hc]
      simp [isDyn, this, hc]

/-! ### Trees of templates -/

theorem trees (L : List (Bytes × Endpoint m)) (ts : List Spec.Radix.Tmpl)
    (h : ∀ x ∈ L, ∃ t ∈ ts, x.1 = Spec.Radix.text t) :
    ∃ ps : List (Spec.Radix.Tmpl × Endpoint m), L = ps.map (fun t => (Spec.Radix.text t.1, t.2)) ∧ ∀ p ∈ ps, p.1 ∈ ts := by
  induction L with
  | nil => exact ⟨[], rfl, by simp⟩
  | cons x L ih =>
    obtain ⟨ps, hps, hm⟩ := ih (fun y hy => h y (by simp [hy]))
    obtain ⟨t, ht, hx⟩ := h x (by simp)
    refine ⟨(t, x.2) :: ps, by simp [← hps, ← hx], ?_⟩
    intro p hp
    rcases List.mem_cons.1 hp with rfl | hp
    · exact ht
    · exact hm p hp

end Indigo.Router

namespace Indigo.GoPath

open Indigo.Spec.Router

theorem elems_append (cur x y : Bytes) : elems cur (x ++ SLASH :: y) = elems cur x ++ elems [] y := by
  induction x generalizing cur with
  | nil => simp [elems]
  | cons c x ih =>
    simp only [List.cons_append, elems]
    split
    · rw [ih]; rfl
    · exact ih _

theorem elems_plain (cur s : Bytes) (h : SLASH ∉ s) : elems cur s = [cur ++ s] := by
  induction s generalizing cur with
  | nil => simp [elems]
  | cons c s ih =>
    simp only [List.mem_cons, not_or] at h
    have hc : ¬ c = SLASH := fun e => h.1 e.symm
    simp [elems, hc, ih _ h.2]

theorem elems_pathOf (s : Bytes) (ss : List Bytes) (h : ∀ x ∈ s :: ss, CleanPart x) :
    elems [] (pathOf (s :: ss)) = [] :: s :: ss := by
  have key : ∀ (ss : List Bytes) (s : Bytes), (∀ x ∈ s :: ss, CleanPart x) → elems [] (s ++ pathOf ss) = s :: ss := by
    intro ss
    induction ss with
    | nil => intro s h; simpa [pathOf] using elems_plain [] s (h s (by simp)).2.2.2
    | cons t ss ih =>
      intro s h
      have : s ++ pathOf (t :: ss) = s ++ SLASH :: (t ++ pathOf ss) := by simp [pathOf]
      rw [this, elems_append, elems_plain [] s (h s (by simp)).2.2.2, ih t (fun x hx => h x (List.mem_cons_of_mem _ hx))]
      rfl
  have : pathOf (s :: ss) = [] ++ SLASH :: (s ++ pathOf ss) := by simp [pathOf]
  rw [this, elems_append, key ss s h]
  rfl

theorem cleanStep_part (rooted : Bool) (out : List Bytes) (e : Bytes) (h : CleanPart e) :
    cleanStep rooted out e = e :: out := by
  obtain ⟨h1, h2, h3, -⟩ := h
  unfold cleanStep
  rw [if_neg (by simp [h1, h2]), if_neg h3]

theorem foldl_parts (rooted : Bool) (out es : List Bytes) (h : ∀ x ∈ es, CleanPart x) :
    es.foldl (cleanStep rooted) out = es.reverse ++ out := by
  induction es generalizing out with
  | nil => rfl
  | cons e es ih =>
    rw [List.foldl_cons, cleanStep_part rooted out e (h e (by simp)), ih _ (fun x hx => h x (by simp [hx]))]
    simp

theorem joinElems_pathOf (s : Bytes) (ss : List Bytes) : SLASH :: joinElems (s :: ss) = pathOf (s :: ss) := by
  induction ss generalizing s with
  | nil => simp [joinElems, pathOf]
  | cons t ss ih =>
    rw [joinElems, ih t]
    · simp [pathOf]
    · simp

/-- Clean paths are kept. -/
theorem clean_pathOf (s : Bytes) (ss : List Bytes) (h : ∀ x ∈ s :: ss, CleanPart x) :
    clean (pathOf (s :: ss)) = pathOf (s :: ss) := by
  have hr : (pathOf (s :: ss)).head? = some SLASH := rfl
  simp only [clean, hr, decide_true]
  rw [elems_pathOf s ss h, List.foldl_cons]
  have : cleanStep true [] [] = [] := rfl
  rw [this, foldl_parts true [] _ h, if_pos trivial, List.append_nil, List.reverse_reverse, joinElems_pathOf]

/-- Clean paths are joined by concatenation. -/
theorem join_pathOf (a b : List Bytes) (ha : ∀ x ∈ a, CleanPart x) (hb : ∀ x ∈ b, CleanPart x) :
    join (pathOf a) (pathOf b) = pathOf (a ++ b) := by
  cases a with
  | nil =>
    cases b with
    | nil => rfl
    | cons t b =>
      have : pathOf (t :: b) ≠ [] := by simp [pathOf]
      rw [join, if_neg (by simp [this]), if_pos (show pathOf [] = [] from rfl), clean_pathOf t b hb]; rfl
  | cons s a =>
    have hs : pathOf (s :: a) ≠ [] := by simp [pathOf]
    cases b with
    | nil => rw [join, if_neg (by simp [hs]), if_neg hs, if_pos (show pathOf [] = [] from rfl), clean_pathOf s a ha,
        List.append_nil]
    | cons t b =>
      have ht : pathOf (t :: b) ≠ [] := by simp [pathOf]
      rw [join, if_neg (by simp [hs]), if_neg hs, if_neg ht]
      have hr : (pathOf (s :: a) ++ SLASH :: pathOf (t :: b)).head? = some SLASH := rfl
      simp only [clean, hr, decide_true]
      have h2 : ∀ (o : List Bytes) es, ([] :: es).foldl (cleanStep true) o = es.foldl (cleanStep true) o :=
        fun o es => rfl
      rw [elems_append, elems_pathOf s a ha, elems_pathOf t b hb, List.foldl_append, h2, h2,
        foldl_parts true [] _ ha, foldl_parts true _ _ hb, if_pos trivial]
      simp only [List.append_nil, List.reverse_append, List.reverse_reverse]
      rw [List.cons_append, joinElems_pathOf]

end Indigo.GoPath

namespace Indigo.Router

open Indigo.Spec.Router

variable {m : Type → Type}

theorem pathOf_append (a b : List Bytes) : pathOf (a ++ b) = pathOf a ++ pathOf b := by simp [pathOf]

end Indigo.Router
