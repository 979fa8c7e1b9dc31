import Verif.Proofs.Radix
import Verif.Spec.Router

namespace Indigo.Router

open Indigo.Spec.Router

variable {m : Type → Type}

/-! ### Middlewares -/

theorem compose_eq_wrap (h : Handler m) (mws : List (Middleware m)) : compose h mws = wrap mws h := by
  rw [compose, List.foldl_reverse]
  induction mws with
  | nil => rfl
  | cons mw mws ih => rw [List.foldr_cons, ih]; rfl

theorem wrap_append (a b : List (Middleware m)) (h : Handler m) : wrap (a ++ b) h = wrap a (wrap b h) := by
  induction a with
  | nil => rfl
  | cons mw a ih => simp [wrap, ih]

/-! ### Registrars -/

theorem set_absent {κ α : Type} [DecidableEq κ] (mm : GoMap κ α) (k : κ) (v : α) (h : mm.get? k = none) :
    mm.set k v = mm ++ [(k, v)] := by
  induction mm with
  | nil => rfl
  | cons e mm ih =>
    obtain ⟨a, b⟩ := e
    simp only [GoMap.get?] at h
    by_cases hk : a = k
    · simp [hk] at h
    · rw [if_neg hk] at h
      simp [GoMap.set, hk, ih h]

/-- All routes of a registrar. -/
def flat (routes : GoMap Bytes (GoMap Method (Handler m))) : List (Decl m) :=
  routes.flatMap (fun e => e.2.map (fun x => ((e.1, x.1), x.2)))

/-- The invariant of registrars. -/
structure Wf (routes : GoMap Bytes (GoMap Method (Handler m))) : Prop where
  paths : (routes.map (·.1)).Nodup
  methods : ∀ e ∈ routes, (e.2.map (·.1)).Nodup ∧ e.2 ≠ []

theorem Wf.nil : Wf (m := m) [] := ⟨by simp, by simp⟩

theorem mem_flat (routes : GoMap Bytes (GoMap Method (Handler m))) (d : Decl m) :
    d ∈ flat routes ↔ ∃ v, (d.1.1, v) ∈ routes ∧ (d.1.2, d.2) ∈ v := by
  obtain ⟨⟨p, mt⟩, h⟩ := d
  simp only [flat, List.mem_flatMap, List.mem_map, Prod.mk.injEq, Prod.exists]
  constructor
  · rintro ⟨p', v, hv, a, b, hab, ⟨rfl, rfl⟩, rfl⟩; exact ⟨v, hv, hab⟩
  · rintro ⟨v, hv, hh⟩; exact ⟨p, v, hv, mt, h, hh, ⟨rfl, rfl⟩, rfl⟩

theorem look_iff (routes : GoMap Bytes (GoMap Method (Handler m))) (hw : Wf routes) (p : Bytes) (mt : Method)
    (h : Handler m) : (((routes.get? p).getD []).get? mt = some h) ↔ ((p, mt), h) ∈ flat routes := by
  rw [mem_flat]
  constructor
  · intro hh
    cases hp : routes.get? p with
    | none => rw [hp] at hh; simp [GoMap.get?] at hh
    | some v =>
      rw [hp] at hh
      exact ⟨v, GoMap.mem_of_get? _ hp, GoMap.mem_of_get? _ hh⟩
  · rintro ⟨v, hv, hh⟩
    rw [GoMap.get?_of_mem _ hw.paths hv]
    exact GoMap.get?_of_mem _ (hw.methods _ hv).1 hh

theorem look_isSome (routes : GoMap Bytes (GoMap Method (Handler m))) (hw : Wf routes) (p : Bytes) (mt : Method) :
    ((((routes.get? p).getD []).get? mt).isSome = true) ↔ (p, mt) ∈ (flat routes).map (·.1) := by
  rw [Option.isSome_iff_exists]
  simp only [look_iff _ hw, List.mem_map]
  constructor
  · rintro ⟨h, hh⟩; exact ⟨_, hh, rfl⟩
  · rintro ⟨⟨k, h⟩, hh, rfl⟩; exact ⟨h, hh⟩

theorem flat_set (routes : GoMap Bytes (GoMap Method (Handler m))) (p : Bytes) (mt : Method) (h : Handler m)
    (hn : ((routes.get? p).getD []).get? mt = none) :
    (flat (routes.set p (((routes.get? p).getD []).set mt h))).Perm (flat routes ++ [((p, mt), h)]) := by
  induction routes with
  | nil => simp [GoMap.set, GoMap.get?, flat]
  | cons e routes ih =>
    obtain ⟨q, v⟩ := e
    simp only [GoMap.get?, GoMap.set] at hn ⊢
    by_cases hq : q = p
    · subst hq
      simp only [if_true, Option.getD_some] at hn ⊢
      rw [set_absent _ _ _ hn]
      simp only [flat, List.flatMap_cons, List.map_append, List.map_cons, List.map_nil, List.append_assoc]
      exact List.Perm.append_left _ List.perm_append_comm
    · simp only [if_neg hq] at hn ⊢
      simp only [flat, List.flatMap_cons, List.append_assoc]
      exact List.Perm.append_left _ (ih hn)

theorem Wf.set {routes : GoMap Bytes (GoMap Method (Handler m))} (hw : Wf routes) (p : Bytes) (mt : Method)
    (h : Handler m) : Wf (routes.set p (((routes.get? p).getD []).set mt h)) := by
  refine ⟨GoMap.nodup_set _ _ _ hw.paths, ?_⟩
  have hv : ((((routes.get? p).getD []).set mt h).map (·.1)).Nodup ∧ ((routes.get? p).getD []).set mt h ≠ [] := by
    refine ⟨GoMap.nodup_set _ _ _ ?_, ?_⟩
    · cases hp : routes.get? p with
      | none => simp
      | some v => exact (hw.methods _ (GoMap.mem_of_get? _ hp)).1
    · cases (routes.get? p).getD [] with
      | nil => simp [GoMap.set]
      | cons a b => obtain ⟨x, y⟩ := a; simp only [GoMap.set]; split <;> simp
  have : ∀ e ∈ routes.set p (((routes.get? p).getD []).set mt h),
      e ∈ routes ∨ e.2 = ((routes.get? p).getD []).set mt h := by
    generalize ((routes.get? p).getD []).set mt h = w
    clear hv hw
    induction routes with
    | nil => simp [GoMap.set]
    | cons e routes ih =>
      obtain ⟨q, v⟩ := e
      simp only [GoMap.set]
      split
      · intro e he
        rcases List.mem_cons.1 he with rfl | he
        · exact Or.inr rfl
        · exact Or.inl (List.mem_cons_of_mem _ he)
      · intro e he
        rcases List.mem_cons.1 he with rfl | he
        · exact Or.inl (List.mem_cons_self ..)
        · rcases ih e he with h | h
          · exact Or.inl (List.mem_cons_of_mem _ h)
          · exact Or.inr h
  intro e he
  rcases this e he with h | h
  · exact hw.methods e h
  · rw [h]; exact hv

/-- The registrar has exactly these routes. -/
structure Rep (routes : GoMap Bytes (GoMap Method (Handler m))) (L : List (Decl m)) : Prop where
  wf : Wf routes
  perm : (flat routes).Perm L

theorem Wf.nodup {routes : GoMap Bytes (GoMap Method (Handler m))} (hw : Wf routes) :
    ((flat routes).map (·.1)).Nodup := by
  obtain ⟨h1, h2⟩ := hw
  induction routes with
  | nil => simp [flat]
  | cons e routes ih =>
    obtain ⟨p, v⟩ := e
    simp only [List.map_cons, List.nodup_cons] at h1
    simp only [flat, List.flatMap_cons, List.map_append, List.map_map]
    refine List.nodup_append.2 ⟨?_, ih h1.2 (fun e he => h2 e (by simp [he])), ?_⟩
    · have := (h2 (p, v) (by simp)).1
      rw [List.nodup_iff_pairwise_ne, List.pairwise_map] at this ⊢
      exact this.imp (fun hne heq => hne (Prod.ext_iff.1 heq).2)
    · intro a ha b hb hab
      subst hab
      simp only [List.mem_map, Function.comp] at ha hb
      obtain ⟨x, hx, rfl⟩ := ha
      obtain ⟨d, hd, hde⟩ := hb
      obtain ⟨v', hv', -⟩ := (mem_flat routes d).1 hd
      rw [hde] at hv'
      exact h1.1 (List.mem_map_of_mem (f := (·.1)) hv')

theorem Rep.keys {routes : GoMap Bytes (GoMap Method (Handler m))} {L : List (Decl m)} (h : Rep routes L) :
    (L.map (·.1)).Nodup := (h.perm.map _).nodup_iff.1 h.wf.nodup

theorem Rep.mem {routes : GoMap Bytes (GoMap Method (Handler m))} {L : List (Decl m)} (h : Rep routes L) (p : Bytes)
    (mt : Method) (x : Handler m) : ((routes.get? p).getD []).get? mt = some x ↔ ((p, mt), x) ∈ L := by
  rw [look_iff _ h.wf, h.perm.mem_iff]

theorem Rep.isSome {routes : GoMap Bytes (GoMap Method (Handler m))} {L : List (Decl m)} (h : Rep routes L)
    (p : Bytes) (mt : Method) :
    (((routes.get? p).getD []).get? mt).isSome = true ↔ (p, mt) ∈ L.map (·.1) := by
  rw [look_isSome _ h.wf, (h.perm.map _).mem_iff]

theorem Rep.add {routes : GoMap Bytes (GoMap Method (Handler m))} {L : List (Decl m)} (h : Rep routes L) (p : Bytes)
    (mt : Method) (x : Handler m) (hn : (p, mt) ∉ L.map (·.1)) :
    Rep (routes.set p (((routes.get? p).getD []).set mt x)) (L ++ [((p, mt), x)]) := by
  refine ⟨h.wf.set p mt x, ?_⟩
  refine (flat_set _ _ _ _ ?_).trans (h.perm.append_right _)
  cases hc : ((routes.get? p).getD []).get? mt with
  | none => rfl
  | some y => exact absurd ((h.isSome p mt).1 (by simp [hc])) hn

/-- Adding routes one by one; `none` if there is one already. -/
def addAll : GoMap Bytes (GoMap Method (Handler m)) → List (Decl m) → Option (GoMap Bytes (GoMap Method (Handler m)))
  | routes, [] => some routes
  | routes, d :: ds =>
    if (((routes.get? d.1.1).getD []).get? d.1.2).isSome then none
    else addAll (routes.set d.1.1 (((routes.get? d.1.1).getD []).set d.1.2 d.2)) ds

theorem addAll_append (routes : GoMap Bytes (GoMap Method (Handler m))) (a b : List (Decl m)) :
    addAll routes (a ++ b) = (addAll routes a).bind (fun r => addAll r b) := by
  induction a generalizing routes with
  | nil => rfl
  | cons d a ih =>
    simp only [List.cons_append, addAll]
    split
    · rfl
    · exact ih _

theorem mergeMethods_eq (p : Bytes) (routes : GoMap Bytes (GoMap Method (Handler m))) (l : List (Method × Handler m)) :
    Registrar.mergeMethods p routes l = addAll routes (l.map (fun x => ((p, x.1), x.2))) := by
  induction l generalizing routes with
  | nil => rfl
  | cons x l ih =>
    obtain ⟨mt, h⟩ := x
    simp only [Registrar.mergeMethods, List.map_cons, addAll]
    split
    · rfl
    · exact ih _

theorem mergePaths_eq (env : Env m) (routes : GoMap Bytes (GoMap Method (Handler m)))
    (l : List (Bytes × GoMap Method (Handler m))) : Registrar.mergePaths env routes l =
      addAll routes (l.flatMap (fun e => (env.methods e.2).map (fun x => ((e.1, x.1), x.2)))) := by
  induction l generalizing routes with
  | nil => rfl
  | cons x l ih =>
    obtain ⟨p, v⟩ := x
    simp only [Registrar.mergePaths, List.flatMap_cons, addAll_append, mergeMethods_eq]
    cases addAll routes ((env.methods v).map (fun x => ((p, x.1), x.2))) with
    | none => rfl
    | some r => exact ih r

theorem addAll_spec (ds : List (Decl m)) : ∀ (routes : GoMap Bytes (GoMap Method (Handler m))) (L : List (Decl m)),
    Rep routes L →
    (∀ r, addAll routes ds = some r → Rep r (L ++ ds)) ∧
      ((addAll routes ds).isSome = true ↔ ((L ++ ds).map (·.1)).Nodup) := by
  induction ds with
  | nil => intro routes L h; simp [addAll]; exact ⟨h, h.keys⟩
  | cons d ds ih =>
    intro routes L h
    obtain ⟨⟨p, mt⟩, x⟩ := d
    simp only [addAll]
    by_cases hs : (p, mt) ∈ L.map (·.1)
    · rw [if_pos ((h.isSome p mt).2 hs)]
      simp only [reduceCtorEq, false_implies, implies_true, Option.isSome_none, Bool.false_eq_true, true_and, false_iff]
      intro hn
      rw [List.map_append, List.nodup_append] at hn
      exact hn.2.2 _ hs _ (by simp) rfl
    · rw [if_neg (fun hh => hs ((h.isSome p mt).1 hh))]
      obtain ⟨h1, h2⟩ := ih _ _ (h.add p mt x hs)
      rw [List.append_assoc] at h1 h2
      exact ⟨h1, h2⟩

theorem flat_perm_env (env : Env m) (routes : GoMap Bytes (GoMap Method (Handler m))) :
    ((env.routes routes).flatMap (fun e => (env.methods e.2).map (fun x => ((e.1, x.1), x.2)))).Perm (flat routes) := by
  have h1 : ∀ l : List (Bytes × GoMap Method (Handler m)),
      (l.flatMap (fun e => (env.methods e.2).map (fun x => ((e.1, x.1), x.2)))).Perm (flat l) := by
    intro l
    induction l with
    | nil => exact List.Perm.refl _
    | cons e l ih =>
      simp only [flat, List.flatMap_cons]
      exact ((env.methods_perm e.2).map _).append ih
  exact (h1 _).trans ((env.routes_perm routes).flatMap_right _)

theorem merge_spec (env : Env m) (r r' : Registrar m) (L L' : List (Decl m)) (h : Rep r.routes L)
    (h' : Rep r'.routes L') :
    (∀ r'', r.merge env r' = some r'' → Rep r''.routes (L ++ L') ∧ r''.isDynamic = (r.isDynamic || r'.isDynamic)) ∧
      ((r.merge env r').isSome = true ↔ ((L ++ L').map (·.1)).Nodup) := by
  have hp := (flat_perm_env env r'.routes).trans h'.perm
  obtain ⟨h1, h2⟩ := addAll_spec ((env.routes r'.routes).flatMap
    (fun e => (env.methods e.2).map (fun x => ((e.1, x.1), x.2)))) _ _ h
  have e2 := ((hp.append_left L).map (·.1)).nodup_iff
  rw [e2] at h2
  simp only [Registrar.merge, mergePaths_eq]
  cases hc : addAll r.routes ((env.routes r'.routes).flatMap
    (fun e => (env.methods e.2).map (fun x => ((e.1, x.1), x.2)))) with
  | none => rw [hc] at h2; simpa using h2
  | some rr =>
    rw [hc] at h2 h1
    refine ⟨?_, by simpa using h2⟩
    rintro r'' e
    simp only [Option.some.injEq] at e
    subst e
    have := h1 rr rfl
    exact ⟨⟨this.wf, this.perm.trans (hp.append_left L)⟩, rfl⟩

theorem flat_apply (r : Registrar m) (f : Handler m → Handler m) :
    flat (r.apply f).routes = (flat r.routes).map (fun d => (d.1, f d.2)) := by
  simp only [flat, Registrar.apply, List.flatMap_map, List.map_flatMap, List.map_map]
  rfl

theorem Rep.apply {r : Registrar m} {L : List (Decl m)} (h : Rep r.routes L) (f : Handler m → Handler m) :
    Rep (r.apply f).routes (L.map (fun d => (d.1, f d.2))) := by
  refine ⟨⟨?_, ?_⟩, ?_⟩
  · simp only [Registrar.apply, List.map_map]; exact h.wf.paths
  · intro e he
    simp only [Registrar.apply, List.mem_map] at he
    obtain ⟨e', he', rfl⟩ := he
    have := h.wf.methods e' he'
    refine ⟨?_, by simpa using this.2⟩
    simp only [List.map_map]
    exact this.1
  · rw [flat_apply]; exact h.perm.map _

end Indigo.Router
