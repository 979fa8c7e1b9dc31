import Verif.Proofs.Router5
import Verif.Model.Again

namespace Indigo.Router.Again
open Indigo.Router Indigo.Spec.Router
variable {m : Type → Type}

/-! ### The first time: the same as `initRouter` -/

theorem places_lineOf {ops : List (Op m)} {c : Nat} {p : Place} (h : (places ops)[c]? = some p) : lineOf ops c = p.line := by
  simp [lineOf, h]

theorem lineOf_mem {ops : List (Op m)} {i c : Nat} (h : c ∈ lineOf ops i) :
    ∃ p, (places ops)[i]? = some p ∧ c ∈ p.line := by
  cases hp : (places ops)[i]? with
  | none => simp [lineOf, hp] at h
  | some p => exact ⟨p, rfl, by simpa [lineOf, hp] using h⟩

/-- What is below a group of a router: the line goes through the router just before. -/
theorem line_through {ops : List (Op m)} {k c i : Nat} (hc : c ∈ kids ops k) {p : Place} (hp : (places ops)[i]? = some p)
    (h : c ∈ p.line) : ∃ a b, p.line = a ++ k :: c :: b := by
  obtain ⟨q, hq, hl⟩ := mem_kids.1 hc
  obtain ⟨a, b, hab⟩ := List.append_of_mem h
  obtain ⟨q', hq', hl'⟩ := (places_ok ops).prefix i p hp a c b hab
  rw [hq] at hq'
  cases hq'
  rw [hl', List.dropLast_concat] at hl
  obtain ⟨a', ha⟩ := List.getLast?_eq_some_iff.1 hl
  exact ⟨a', b, by rw [hab, ha]; simp⟩

theorem next_unique {l a b a' b' : List Nat} {k c c' : Nat} (hn : l.Nodup) (h : l = a ++ k :: c :: b)
    (h' : l = a' ++ k :: c' :: b') : c = c' := by
  have key : ∀ {a b : List Nat} {c : Nat}, l = a ++ k :: c :: b → l[l.idxOf k + 1]? = some c := by
    intro a b c h
    have hka : k ∉ a := by
      rw [h, List.nodup_append] at hn
      intro hk
      exact hn.2.2 k hk k (by simp) rfl
    have : l.idxOf k = a.length := by rw [h, List.idxOf_append]; simp [hka]
    rw [this, h, List.getElem?_append_right (by omega)]
    simp
  have := (key h).symm.trans (key h')
  simpa using this

theorem below_kid {ops : List (Op m)} {k c i : Nat} (hc : c ∈ kids ops k) (h : c ∈ lineOf ops i) : k ∈ lineOf ops i := by
  obtain ⟨p, hp, hm⟩ := lineOf_mem h
  obtain ⟨a, b, e⟩ := line_through hc hp hm
  rw [places_lineOf hp, e]
  simp

theorem below_one {ops : List (Op m)} {k c c' i : Nat} (hc : c ∈ kids ops k) (hc' : c' ∈ kids ops k) (h : c ∈ lineOf ops i)
    (h' : c' ∈ lineOf ops i) : c = c' := by
  obtain ⟨p, hp, hm⟩ := lineOf_mem h
  rw [places_lineOf hp] at h'
  obtain ⟨a, b, e⟩ := line_through hc hp hm
  obtain ⟨a', b', e'⟩ := line_through hc' hp h'
  have hn : p.line.Nodup := by
    have := ((places_ok ops).line i p hp).2.2.2
    exact this.imp (fun h => Nat.ne_of_lt h)
  exact next_unique hn e e'

theorem lineOf_le {ops : List (Op m)} {i c : Nat} (h : c ∈ lineOf ops i) : c ≤ i := by
  obtain ⟨p, hp, hm⟩ := lineOf_mem h
  exact ((places_ok ops).line i p hp).2.2.1 c hm

theorem lineOf_self {ops : List (Op m)} {i : Nat} (h : i < (places ops).length) : i ∈ lineOf ops i := by
  have hp := List.getElem?_eq_getElem h
  obtain ⟨⟨l, e⟩, -⟩ := (places_ok ops).line i _ hp
  rw [places_lineOf hp, e]
  simp

/-- What the preparation with effects does, compared with the one without. -/
def Agrees (ops : List (Op m)) (k : Nat) (rs : List (Rec m)) (res : Option (List (Rec m))) (want : Option (Rec m)) : Prop :=
  match res with
  | none => want = none
  | some rs' => (∃ rec, rs'[k]? = some rec ∧ want = some rec) ∧ ∀ i, k ∉ lineOf ops i → rs'[i]? = rs[i]?

theorem childLoop_agrees (env : Env m) {ops : List (Op m)} {w : World m} {k : Nat}
    (child : Nat → List (Rec m) → Option (List (Rec m))) (child' : Nat → Option (Rec m))
    (hc : ∀ c ∈ kids ops k, ∀ rs : List (Rec m), (∀ i, c ∈ lineOf ops i → rs[i]? = w.routers[i]?) →
      Agrees ops c rs (child c rs) (child' c)) :
    ∀ (cs : List Nat) (rs : List (Rec m)) (rr : Rec m), (∀ c ∈ cs, c ∈ kids ops k) → cs.Nodup → rs[k]? = some rr →
      (∀ c ∈ cs, ∀ i, c ∈ lineOf ops i → rs[i]? = w.routers[i]?) →
      match childLoop env child k cs rs with
      | none => prepareLoop env child' rr cs = none
      | some rs' => (∃ rec, rs'[k]? = some rec ∧ prepareLoop env child' rr cs = some rec) ∧
          ∀ i, k ∉ lineOf ops i → rs'[i]? = rs[i]? := by
  intro cs
  induction cs with
  | nil => intro rs rr _ _ h _; exact ⟨⟨rr, h, rfl⟩, fun _ _ => rfl⟩
  | cons c cs ih =>
    intro rs rr hk hn hr hs
    have hck : c ∈ kids ops k := hk c (by simp)
    have hlt := (kids_gt hck).1
    have := hc c hck rs (hs c (by simp))
    rw [childLoop, prepareLoop]
    cases hch : child c rs with
    | none =>
      rw [hch] at this
      simp only [Agrees] at this
      simp only [this]
    | some rs1 =>
      rw [hch] at this
      simp only [Agrees] at this
      obtain ⟨⟨rc, h1, h2⟩, h3⟩ := this
      have hck' : c ∉ lineOf ops k := fun h => by have := lineOf_le h; omega
      have hr1 : rs1[k]? = some rr := by rw [h3 k hck', hr]
      simp only [hr1, h1, h2]
      cases hm : rr.registrar.merge env rc.registrar with
      | none => simp
      | some reg =>
        simp only
        have hkl : k < rs1.length := (List.getElem?_eq_some_iff.1 hr1).1
        have := ih (rs1.set k (adopt rr rc reg))
          (adopt rr rc reg)
          (fun c' h' => hk c' (by simp [h'])) (List.nodup_cons.1 hn).2 (by simp [hkl]) ?_
        · split
          · rename_i hz; rw [hz] at this; exact this
          · rename_i rs' hz
            rw [hz] at this
            refine ⟨this.1, fun i hi => ?_⟩
            rw [this.2 i hi]
            by_cases hik : k = i
            · subst hik
              exfalso
              refine hi ?_
              have hb := below_kid hck (lineOf_self (kids_gt hck).2)
              exact lineOf_self (by have := kids_gt hck; omega)
            · rw [List.getElem?_set_ne hik]
              exact h3 i (fun hh => hi (below_kid hck hh))
        · intro c' hc' i hi
          have hne : k ≠ i := by
            intro e
            have h1 := lineOf_le hi
            have h2 := (kids_gt (hk c' (by simp [hc']))).1
            omega
          rw [List.getElem?_set_ne hne]
          rw [h3 i, hs c' (by simp [hc']) i hi]
          intro hh
          have := below_one hck (hk c' (by simp [hc'])) hh hi
          subst this
          exact (List.nodup_cons.1 hn).1 hc'

theorem prepare_agrees (env : Env m) {w₀ w : World m} {ops : List (Op m)} (hi : Inv w₀ ops w) :
    ∀ (fuel k : Nat) (rs : List (Rec m)), k < (places ops).length → (∀ i, k ∈ lineOf ops i → rs[i]? = w.routers[i]?) →
      Agrees ops k rs (prepare env fuel k rs) (Router.prepare env w fuel k) := by
  intro fuel
  induction fuel with
  | zero => intro k rs _ _; rfl
  | succ fuel ih =>
    intro k rs hk hs
    rw [prepare, Router.prepare, hs k (lineOf_self hk)]
    cases hrec : w.routers[k]? with
    | none => rfl
    | some rec =>
      have hch : rec.children = kids ops k := (hi.recs k rec hrec).children
      have := childLoop_agrees env (w := w) (k := k) (prepare env fuel) (Router.prepare env w fuel)
        (fun c hc rs' h' => ih c rs' (kids_gt hc).2 h') rec.children rs rec (by rw [hch]; exact fun c h => h)
        (by rw [hch]; exact kids_nodup ops k) (by rw [hs k (lineOf_self hk), hrec])
        (by intro c hc i h; rw [hch] at hc; exact hs i (below_kid hc h))
      simp only
      cases hl : childLoop env (prepare env fuel) k rec.children rs with
      | none =>
        rw [hl] at this
        simp only at this
        simp only [this, Agrees]
      | some rs' =>
        rw [hl] at this
        simp only at this
        obtain ⟨⟨rec', h1, h2⟩, h3⟩ := this
        simp only [h2, Agrees]
        refine ⟨⟨_, ?_, rfl⟩, fun i h => ?_⟩
        · rw [List.getElem?_modify_eq, h1]; rfl
        · have hne : k ≠ i := by
            intro e
            subst e
            exact h (lineOf_self hk)
          rw [List.getElem?_modify, h3 i h]
          simp [hne]

theorem sort_length (env : Env m) (l : List (Catcher m)) : (env.sort l).length = l.length := (env.sort_perm l).length_eq

/-- Initializing a router for the first time. -/
theorem first (grow : Nat → Nat → Nat) (env : Env m) {w₀ w : World m} {ops : List (Op m)} (hi : Inv w₀ ops w) (cap : Nat) :
    (initialized grow env ⟨w, [], cap⟩).map (fun r => r.1.runtime r.2) = initRouter env w := by
  have hpos := places_pos ops
  have := prepare_agrees env hi w.routers.length 0 w.routers hpos (fun _ _ => rfl)
  rw [initialized, initRouter]
  cases hr : w.routers[0]? with
  | none => rfl
  | some root =>
    simp only
    cases hp : prepare env w.routers.length 0 w.routers with
    | none =>
      rw [hp] at this
      simp only [Agrees] at this
      simp only [this]
      rfl
    | some rs =>
      rw [hp] at this
      simp only [Agrees] at this
      obtain ⟨⟨rec, h1, h2⟩, h3⟩ := this
      have hlen : 0 < rs.length := (List.getElem?_eq_some_iff.1 h1).1
      simp only [h1, h2, tableOf]
      by_cases hd : rec.registrar.isDynamic = true
      · simp only [hd, if_true]
        cases asRadixTree env rec.registrar with
        | none => rfl
        | some tree =>
          simp only [Option.map_some, Handle.runtime, Option.some.injEq]
          simp [hlen, ← sort_length env rec.catchers]
      · simp only [hd, Bool.false_eq_true, if_false]
        simp only [Option.map_some, Handle.runtime, Option.some.injEq]
        simp [hlen, ← sort_length env rec.catchers]

/-! ### Groups with routes: the second time fails -/

/-- A route of this path and method is registered at the router. -/
def HasKey (rec : Rec m) (key : Bytes × Method) : Prop := ∃ L, Rep rec.registrar.routes L ∧ key ∈ L.map (·.1)

/-- All maps of routes are maps. -/
def AllWf (rs : List (Rec m)) : Prop := ∀ (i : Nat) (rec : Rec m), rs[i]? = some rec → ∃ L, Rep rec.registrar.routes L

/-- Nothing gets lost. -/
def Grows (rs rs' : List (Rec m)) : Prop := ∀ (i : Nat) rec, rs[i]? = some rec →
  ∃ rec', rs'[i]? = some rec' ∧ rec'.children = rec.children ∧ ∀ key, HasKey rec key → HasKey rec' key

theorem Grows.refl (rs : List (Rec m)) : Grows rs rs := fun _ rec h => ⟨rec, h, rfl, fun _ h => h⟩

theorem Grows.trans {a b c : List (Rec m)} (h : Grows a b) (h' : Grows b c) : Grows a c := by
  intro i rec hi
  obtain ⟨r1, h1, h2, h3⟩ := h i rec hi
  obtain ⟨r2, h4, h5, h6⟩ := h' i r1 h1
  exact ⟨r2, h4, h5.trans h2, fun k hk => h6 k (h3 k hk)⟩

theorem rep_mem {rec : Rec m} {L L' : List (Decl m)} (h : Rep rec.registrar.routes L) (h' : Rep rec.registrar.routes L')
    {key : Bytes × Method} (hk : key ∈ L.map (·.1)) : key ∈ L'.map (·.1) :=
  ((h.perm.symm.trans h'.perm).map _).mem_iff.1 hk

/-- Changing one router. -/
theorem grows_set {rs : List (Rec m)} (wf : AllWf rs) {r : Nat} {old new : Rec m} (h : rs[r]? = some old) (hc : new.children = old.children)
    {L : List (Decl m)} (hL : Rep new.registrar.routes L) (hk : ∀ key, HasKey old key → key ∈ L.map (·.1)) :
    AllWf (rs.set r new) ∧ Grows rs (rs.set r new) := by
  have hlt : r < rs.length := (List.getElem?_eq_some_iff.1 h).1
  constructor
  · intro i rec hi
    by_cases e : r = i
    · subst e
      simp [hlt] at hi
      subst hi
      exact ⟨L, hL⟩
    · rw [List.getElem?_set_ne e] at hi
      exact wf i rec hi
  · intro i rec hi
    by_cases e : r = i
    · subst e
      rw [h] at hi
      cases hi
      exact ⟨new, by simp [hlt], hc, fun key hh => ⟨L, hL, hk key hh⟩⟩
    · exact ⟨rec, by rw [List.getElem?_set_ne e]; exact hi, rfl, fun _ h => h⟩

theorem modify_set {rs : List (Rec m)} {r : Nat} {rec : Rec m} (h : rs[r]? = some rec) (f : Rec m → Rec m) :
    rs.modify r f = rs.set r (f rec) := by
  obtain ⟨hlt, he⟩ := List.getElem?_eq_some_iff.1 h
  apply List.ext_getElem?
  intro i
  rw [List.getElem?_modify]
  by_cases e : r = i
  · subst e; simp [hlt, he]
  · rw [List.getElem?_set_ne e]; simp [e]

/-- A child gives all its routes to its parent. -/
theorem merge_keys {env : Env m} {rr rc : Rec m} {reg : Registrar m} {L L' : List (Decl m)} (h : Rep rr.registrar.routes L)
    (h' : Rep rc.registrar.routes L') (hm : rr.registrar.merge env rc.registrar = some reg) : Rep reg.routes (L ++ L') :=
  ((merge_spec env _ _ L L' h h').1 reg hm).1

theorem grows_loop (env : Env m) (child : Nat → List (Rec m) → Option (List (Rec m))) (r : Nat)
    (hc : ∀ c rs rs', AllWf rs → child c rs = some rs' → AllWf rs' ∧ Grows rs rs') :
    ∀ (cs : List Nat) (rs rs' : List (Rec m)), AllWf rs → childLoop env child r cs rs = some rs' → AllWf rs' ∧ Grows rs rs' := by
  intro cs
  induction cs with
  | nil => intro rs rs' wf h; cases h; exact ⟨wf, .refl _⟩
  | cons c cs ih =>
    intro rs rs' wf h
    rw [childLoop] at h
    cases h1 : child c rs with
    | none => rw [h1] at h; simp at h
    | some rs1 =>
      obtain ⟨w1, g1⟩ := hc c rs rs1 wf h1
      rw [h1] at h
      simp only at h
      cases hr : rs1[r]? with
      | none => rw [hr] at h; simp at h
      | some rr =>
        cases hcc : rs1[c]? with
        | none => rw [hr, hcc] at h; simp at h
        | some rc =>
          rw [hr, hcc] at h
          simp only at h
          cases hm : rr.registrar.merge env rc.registrar with
          | none => rw [hm] at h; simp at h
          | some reg =>
            rw [hm] at h
            simp only at h
            obtain ⟨L, hL⟩ := w1 r rr hr
            obtain ⟨L', hL'⟩ := w1 c rc hcc
            obtain ⟨w2, g2⟩ := grows_set (new := (adopt rr rc reg)) w1 hr rfl (merge_keys hL hL' hm) (by
                rintro key ⟨L2, k1, k2⟩
                rw [List.map_append]
                exact List.mem_append_left _ (rep_mem k1 hL k2))
            obtain ⟨w3, g3⟩ := ih _ _ w2 h
            exact ⟨w3, g1.trans (g2.trans g3)⟩

theorem finish_keys {rec : Rec m} {L : List (Decl m)} (h : Rep rec.registrar.routes L) :
    Rep (finish rec).registrar.routes (L.map (fun d => (d.1, compose d.2 rec.middlewares))) :=
  h.apply _

theorem grows_finish {rs : List (Rec m)} (wf : AllWf rs) (r : Nat) : AllWf (rs.modify r finish) ∧ Grows rs (rs.modify r finish) := by
  cases h : rs[r]? with
  | none =>
    have : rs.modify r finish = rs := by
      apply List.ext_getElem?
      intro i
      rw [List.getElem?_modify]
      by_cases e : r = i
      · subst e; simp [h]
      · simp [e]
    rw [this]
    exact ⟨wf, .refl _⟩
  | some rec =>
    rw [modify_set h]
    obtain ⟨L, hL⟩ := wf r rec h
    refine grows_set wf h rfl (finish_keys hL) ?_
    rintro key ⟨L2, k1, k2⟩
    have := rep_mem k1 hL k2
    simpa using this

theorem grows_prepare (env : Env m) : ∀ (fuel r : Nat) (rs rs' : List (Rec m)), AllWf rs → prepare env fuel r rs = some rs' →
    AllWf rs' ∧ Grows rs rs' := by
  intro fuel
  induction fuel with
  | zero => intro r rs rs' _ h; simp [prepare] at h
  | succ fuel ih =>
    intro r rs rs' wf h
    rw [prepare] at h
    cases hr : rs[r]? with
    | none => rw [hr] at h; simp at h
    | some rec =>
      rw [hr] at h
      simp only at h
      cases hl : childLoop env (prepare env fuel) r rec.children rs with
      | none => rw [hl] at h; simp at h
      | some rs1 =>
        rw [hl] at h
        cases h
        obtain ⟨w1, g1⟩ := grows_loop env (prepare env fuel) r (fun c rs rs' => ih c rs rs') _ _ _ wf hl
        obtain ⟨w2, g2⟩ := grows_finish w1 r
        exact ⟨w2, g1.trans g2⟩

/-- A group, somewhere below the router, has a route which its parent has already. -/
inductive Doomed (rs : List (Rec m)) : Nat → Prop
  | clash {r c key} {rr rc : Rec m} : rs[r]? = some rr → rs[c]? = some rc → c ∈ rr.children → HasKey rr key → HasKey rc key → Doomed rs r
  | deep {r c} {rr : Rec m} : rs[r]? = some rr → c ∈ rr.children → Doomed rs c → Doomed rs r

theorem Doomed.mono {rs rs' : List (Rec m)} {r : Nat} (h : Doomed rs r) (g : Grows rs rs') : Doomed rs' r := by
  induction h with
  | clash h1 h2 h3 h4 h5 =>
    obtain ⟨r1, a1, a2, a3⟩ := g _ _ h1
    obtain ⟨r2, b1, b2, b3⟩ := g _ _ h2
    exact .clash a1 b1 (a2 ▸ h3) (a3 _ h4) (b3 _ h5)
  | deep h1 h2 _ ih =>
    obtain ⟨r1, a1, a2, a3⟩ := g _ _ h1
    exact .deep a1 (a2 ▸ h2) ih

theorem loop_fails (env : Env m) (child : Nat → List (Rec m) → Option (List (Rec m))) (r c : Nat)
    (hc : ∀ c rs rs', AllWf rs → child c rs = some rs' → AllWf rs' ∧ Grows rs rs')
    (bad : List (Rec m) → Prop) (mono : ∀ rs rs', bad rs → Grows rs rs' → bad rs')
    (fails : ∀ rs, AllWf rs → bad rs → child c rs = none ∨ ∃ rr rc key, rs[r]? = some rr ∧ rs[c]? = some rc ∧ HasKey rr key ∧ HasKey rc key) :
    ∀ (cs : List Nat) (rs : List (Rec m)), c ∈ cs → AllWf rs → bad rs → childLoop env child r cs rs = none := by
  intro cs
  induction cs with
  | nil => intro rs h; simp at h
  | cons d cs ih =>
    intro rs hcs wf hb
    rw [childLoop]
    cases h1 : child d rs with
    | none => rfl
    | some rs1 =>
      obtain ⟨w1, g1⟩ := hc d rs rs1 wf h1
      simp only
      cases hr : rs1[r]? with
      | none => rfl
      | some rr =>
        cases hcc : rs1[d]? with
        | none => rfl
        | some rc =>
          simp only
          obtain ⟨L, hL⟩ := w1 r rr hr
          obtain ⟨L', hL'⟩ := w1 d rc hcc
          cases hm : rr.registrar.merge env rc.registrar with
          | none => rfl
          | some reg =>
            simp only
            obtain ⟨w2, g2⟩ := grows_set (new := (adopt rr rc reg)) w1 hr rfl (merge_keys hL hL' hm) (by
                rintro key ⟨L2, k1, k2⟩
                rw [List.map_append]
                exact List.mem_append_left _ (rep_mem k1 hL k2))
            by_cases hcd : c = d
            · subst hcd
              exfalso
              rcases fails rs wf hb with h | ⟨rr0, rc0, key, k1, k2, k3, k4⟩
              · rw [h] at h1; simp at h1
              · obtain ⟨rr', a1, -, a3⟩ := g1 _ _ k1
                obtain ⟨rc', b1, -, b3⟩ := g1 _ _ k2
                rw [hr] at a1; cases a1
                rw [hcc] at b1; cases b1
                obtain ⟨L1, l1, l2⟩ := a3 _ k3
                obtain ⟨L2, l3, l4⟩ := b3 _ k4
                have := (merge_spec env _ _ L L' hL hL').2
                rw [hm] at this
                have hn := this.1 rfl
                rw [List.map_append, List.nodup_append] at hn
                exact hn.2.2 key (rep_mem l1 hL l2) key (rep_mem l3 hL' l4) rfl
            · exact ih _ (by simpa [hcd] using hcs) w2 (mono _ _ (mono _ _ hb g1) g2)

theorem doomed_fails (env : Env m) : ∀ (fuel r : Nat) (rs : List (Rec m)), AllWf rs → Doomed rs r → prepare env fuel r rs = none := by
  intro fuel
  induction fuel with
  | zero => intro r rs _ _; rfl
  | succ fuel ih =>
    intro r rs wf hd
    rw [prepare]
    cases hr : rs[r]? with
    | none => rfl
    | some rec =>
      simp only
      cases hd with
      | @clash _ c key rr rc h1 h2 h3 h4 h5 =>
        rw [hr] at h1; cases h1
        rw [loop_fails env (prepare env fuel) r c (fun c rs rs' => grows_prepare env fuel c rs rs')
          (fun rs => ∃ rr rc, rs[r]? = some rr ∧ rs[c]? = some rc ∧ HasKey rr key ∧ HasKey rc key) ?_ ?_ rec.children rs h3 wf
          ⟨rec, rc, hr, h2, h4, h5⟩]
        · rintro rs rs' ⟨rr, rc, k1, k2, k3, k4⟩ g
          obtain ⟨r1, a1, -, a3⟩ := g _ _ k1
          obtain ⟨r2, b1, -, b3⟩ := g _ _ k2
          exact ⟨r1, r2, a1, b1, a3 _ k3, b3 _ k4⟩
        · rintro rs _ ⟨rr, rc, k1, k2, k3, k4⟩
          exact .inr ⟨rr, rc, key, k1, k2, k3, k4⟩
      | @deep _ c rr h1 h2 h3 =>
        rw [hr] at h1; cases h1
        rw [loop_fails env (prepare env fuel) r c (fun c rs rs' => grows_prepare env fuel c rs rs')
          (fun rs => Doomed rs c) (fun _ _ h g => h.mono g) (fun rs wf h => .inl (ih c rs wf h)) rec.children rs h2 wf h3]

/-- The router or a group below it has a route. -/
inductive Routes (rs : List (Rec m)) : Nat → Prop
  | here {r key} {rr : Rec m} : rs[r]? = some rr → HasKey rr key → Routes rs r
  | deep {r c} {rr : Rec m} : rs[r]? = some rr → c ∈ rr.children → Routes rs c → Routes rs r

theorem Routes.mono {rs rs' : List (Rec m)} {r : Nat} (h : Routes rs r) (g : Grows rs rs') : Routes rs' r := by
  induction h with
  | here h1 h2 =>
    obtain ⟨r1, a1, a2, a3⟩ := g _ _ h1
    exact .here a1 (a3 _ h2)
  | deep h1 h2 _ ih =>
    obtain ⟨r1, a1, a2, a3⟩ := g _ _ h1
    exact .deep a1 (a2 ▸ h2) ih

/-- After the children have been merged, the routes of a child are also those of the router. -/
theorem loop_dooms (env : Env m) (child : Nat → List (Rec m) → Option (List (Rec m))) (r c : Nat)
    (hc : ∀ c rs rs', AllWf rs → child c rs = some rs' → AllWf rs' ∧ Grows rs rs')
    (bad : List (Rec m) → Prop) (mono : ∀ rs rs', bad rs → Grows rs rs' → bad rs')
    (dooms : ∀ rs rs', AllWf rs → bad rs → child c rs = some rs' → Doomed rs' c ∨ ∃ rc key, rs'[c]? = some rc ∧ HasKey rc key) :
    ∀ (cs : List Nat) (rs rs' : List (Rec m)), c ∈ cs → AllWf rs → bad rs → childLoop env child r cs rs = some rs' →
      Doomed rs' c ∨ ∃ rr rc key, rs'[r]? = some rr ∧ rs'[c]? = some rc ∧ HasKey rr key ∧ HasKey rc key := by
  intro cs
  induction cs with
  | nil => intro rs rs' h; simp at h
  | cons d cs ih =>
    intro rs rs' hcs wf hb h
    rw [childLoop] at h
    cases h1 : child d rs with
    | none => rw [h1] at h; simp at h
    | some rs1 =>
      obtain ⟨w1, g1⟩ := hc d rs rs1 wf h1
      rw [h1] at h
      simp only at h
      cases hr : rs1[r]? with
      | none => rw [hr] at h; simp at h
      | some rr =>
        cases hcc : rs1[d]? with
        | none => rw [hr, hcc] at h; simp at h
        | some rc =>
          rw [hr, hcc] at h
          simp only at h
          cases hm : rr.registrar.merge env rc.registrar with
          | none => rw [hm] at h; simp at h
          | some reg =>
            rw [hm] at h
            simp only at h
            obtain ⟨L, hL⟩ := w1 r rr hr
            obtain ⟨L', hL'⟩ := w1 d rc hcc
            have hlt : r < rs1.length := (List.getElem?_eq_some_iff.1 hr).1
            obtain ⟨w2, g2⟩ := grows_set (new := (adopt rr rc reg)) w1 hr rfl (merge_keys hL hL' hm) (by
                rintro key ⟨L2, k1, k2⟩
                rw [List.map_append]
                exact List.mem_append_left _ (rep_mem k1 hL k2))
            by_cases hcd : c = d
            · subst hcd
              obtain ⟨-, g3⟩ := grows_loop env child r hc cs _ _ w2 h
              rcases dooms rs rs1 wf hb h1 with hd | ⟨rc0, key, k1, k2⟩
              · exact .inl ((hd.mono g2).mono g3)
              · rw [hcc] at k1
                cases k1
                obtain ⟨L2, l1, l2⟩ := k2
                have hkey : HasKey (adopt rr rc reg) key := by
                  refine ⟨L ++ L', merge_keys hL hL' hm, ?_⟩
                  rw [List.map_append]
                  exact List.mem_append_right _ (rep_mem l1 hL' l2)
                obtain ⟨rc1, c1, -, c3⟩ := g2 _ _ hcc
                obtain ⟨rr2, a1, -, a3⟩ := g3 r (adopt rr rc reg) (by simp [hlt])
                obtain ⟨rc2, b1, -, b3⟩ := g3 _ _ c1
                exact .inr ⟨rr2, rc2, key, a1, b1, a3 _ hkey, b3 _ (c3 _ ⟨L2, l1, l2⟩)⟩
            · exact ih _ _ (by simpa [hcd] using hcs) w2 (mono _ _ (mono _ _ hb g1) g2) h

theorem prepare_dooms (env : Env m) : ∀ (fuel r : Nat) (rs rs' : List (Rec m)) (rr : Rec m) (c : Nat), AllWf rs → rs[r]? = some rr →
    c ∈ rr.children → Routes rs c → prepare env fuel r rs = some rs' → Doomed rs' r := by
  intro fuel
  induction fuel with
  | zero => intro r rs rs' rr c _ _ _ _ h; simp [prepare] at h
  | succ fuel ih =>
    intro r rs rs' rr c wf hr hc hroutes h
    rw [prepare, hr] at h
    simp only at h
    cases hl : childLoop env (prepare env fuel) r rr.children rs with
    | none => rw [hl] at h; simp at h
    | some rs1 =>
      rw [hl] at h
      cases h
      have gp := fun c rs rs' => grows_prepare env fuel c rs rs'
      obtain ⟨w1, g1⟩ := grows_loop env (prepare env fuel) r gp _ _ _ wf hl
      obtain ⟨w2, g2⟩ := grows_finish w1 r
      obtain ⟨rr1, a1, a2, -⟩ := g1 _ _ hr
      have := loop_dooms env (prepare env fuel) r c gp (fun rs => Routes rs c) (fun _ _ h g => h.mono g) ?_ _ _ _ hc wf hroutes hl
      · rcases this with hd | ⟨rr', rc', key, k1, k2, k3, k4⟩
        · exact (Doomed.deep a1 (a2 ▸ hc) hd).mono g2
        · rw [a1] at k1; cases k1
          exact (Doomed.clash a1 k2 (a2 ▸ hc) k3 k4).mono g2
      · intro rs rs' wf hb h
        obtain ⟨-, g⟩ := gp c rs rs' wf h
        cases hb with
        | here h1 h2 =>
          obtain ⟨rc, b1, -, b3⟩ := g _ _ h1
          exact .inr ⟨rc, _, b1, b3 _ h2⟩
        | deep h1 h2 h3 => exact .inl (ih c rs rs' _ _ wf h1 h2 h3 h)

theorem inv_wf {w₀ w : World m} {ops : List (Op m)} (hi : Inv w₀ ops w) : AllWf w.routers :=
  fun i rec h => ⟨_, (hi.recs i rec h).routes⟩

/-- A route of a group is below the root. -/
theorem routes_below {w₀ w : World m} {ops : List (Op m)} (hi : Inv w₀ ops w) :
    ∀ (r : Nat), r ≠ 0 → r < (places ops).length → Routes w.routers r → ∃ root c, w.routers[0]? = some root ∧ c ∈ root.children ∧ Routes w.routers c := by
  intro r
  induction r using Nat.strongRecOn with
  | _ r ih =>
    intro h0 hr hroutes
    have hp := List.getElem?_eq_getElem hr
    rcases (places_ok ops).other r _ hp with h | ⟨q, pq, h1, h2, h3⟩
    · exact absurd h h0
    · have hq : q < (places ops).length := (List.getElem?_eq_some_iff.1 h2).1
      have hrec := List.getElem?_eq_getElem (l := w.routers) (i := q) (by rw [hi.len]; exact hq)
      have hkid : r ∈ kids ops q := by
        refine mem_kids.2 ⟨_, hp, ?_⟩
        obtain ⟨⟨l, e⟩, -⟩ := (places_ok ops).line q pq h2
        rw [h3, e]
        simp
      have hch : r ∈ (w.routers[q]'(by rw [hi.len]; exact hq)).children := by
        rw [(hi.recs q _ hrec).children]; exact hkid
      by_cases hq0 : q = 0
      · subst hq0
        exact ⟨_, r, hrec, hch, hroutes⟩
      · exact ih q h1 hq0 hq (.deep hrec hch hroutes)

/-- The second `Initialize` of a router one of whose groups has a route. -/
theorem second_fails (grow : Nat → Nat → Nat) (env : Env m) {w₀ w : World m} {ops : List (Op m)} (hi : Inv w₀ ops w) (old cap)
    (r : Nat) (h0 : r ≠ 0) (hr : r < (places ops).length) {d : Decl m} (hd : d ∈ own (routeItems ops) ops r) {h : Handle m} {l : Live m}
    (h1 : initialized grow env ⟨w, old, cap⟩ = some (h, l)) : initialized grow env l = none := by
  have hrec := List.getElem?_eq_getElem (l := w.routers) (i := r) (by rw [hi.len]; exact hr)
  have hkey : HasKey (w.routers[r]'(by rw [hi.len]; exact hr)) d.1 :=
    ⟨_, (hi.recs r _ hrec).routes, List.mem_map_of_mem hd⟩
  obtain ⟨root, c, a1, a2, a3⟩ := routes_below hi r h0 hr (.here hrec hkey)
  rw [initialized] at h1
  simp only [a1] at h1
  cases hp : prepare env w.routers.length 0 w.routers with
  | none => rw [hp] at h1; simp at h1
  | some rs =>
    rw [hp] at h1
    simp only at h1
    have hd := prepare_dooms env _ _ _ _ root c (inv_wf hi) a1 a2 a3 hp
    obtain ⟨w1, -⟩ := grows_prepare env _ _ _ _ (inv_wf hi) hp
    cases hr0 : rs[0]? with
    | none => rw [hr0] at h1; simp at h1
    | some rec =>
      rw [hr0] at h1
      simp only at h1
      cases ht : tableOf env rec.registrar with
      | none => rw [ht] at h1; simp at h1
      | some table =>
        rw [ht] at h1
        simp only [Option.some.injEq, Prod.mk.injEq] at h1
        obtain ⟨-, rfl⟩ := h1
        obtain ⟨L, hL⟩ := w1 0 rec hr0
        obtain ⟨w2, g2⟩ := grows_set (new := { rec with catchers := env.sort rec.catchers }) w1 hr0 rfl hL (by
          rintro key ⟨L2, k1, k2⟩; exact rep_mem k1 hL k2)
        rw [initialized]
        simp only
        cases (rs.set 0 { rec with catchers := env.sort rec.catchers })[0]? with
        | none => rfl
        | some root' =>
          simp only
          rw [doomed_fails env _ 0 _ w2 (hd.mono g2)]

/-! ### Routers without groups -/

/-- No groups are made. -/
def NoGroups (ops : List (Op m)) : Prop := ∀ op ∈ ops, ∀ r p, op ≠ .group r p

theorem noGroups_places {ops : List (Op m)} (h : NoGroups ops) : places ops = [⟨[0], []⟩] := by
  induction ops using snoc_induction with
  | nil => rfl
  | snoc ops op ih =>
    rw [places_snoc, ih (fun o ho => h o (by simp [ho]))]
    cases op with
    | group r p => exact absurd rfl (h (.group r p) (by simp) r p)
    | _ => rfl

theorem noGroups_root {w₀ w : World m} {ops : List (Op m)} (hi : Inv w₀ ops w) (h : NoGroups ops) :
    ∃ root, w.routers = [root] ∧ root.children = [] ∧ root.middlewares = uses ops 0 := by
  have hl := hi.len
  rw [noGroups_places h] at hl
  obtain ⟨root, e⟩ := List.length_eq_one_iff.1 hl
  have hr := hi.recs 0 root (by rw [e]; rfl)
  refine ⟨root, e, ?_, hr.mws⟩
  rw [hr.children]
  cases hk : kids ops 0 with
  | nil => rfl
  | cons c cs =>
    have := kids_gt (ops := ops) (r := 0) (c := c) (by rw [hk]; simp)
    rw [noGroups_places h] at this
    simp at this
    omega

theorem prepare_one (env : Env m) (root : Rec m) (h : root.children = []) (n : Nat) : prepare env (n + 1) 0 [root] = some [finish root] := by
  simp [prepare, h, childLoop]

theorem prepare_one' (env : Env m) (root : Rec m) (errs) (h : root.children = []) (n : Nat) :
    Router.prepare env ⟨[root], errs⟩ (n + 1) 0 = some (finish root) := by
  simp [Router.prepare, h, prepareLoop, finish]

/-- Middlewares, so many times. -/
def rep (mws : List (Middleware m)) : Nat → List (Middleware m)
  | 0 => []
  | n + 1 => mws ++ rep mws n

theorem rep_comm (mws : List (Middleware m)) (n : Nat) : mws ++ rep mws n = rep mws n ++ mws := by
  induction n with
  | zero => simp [rep]
  | succ n ih => rw [rep, ih, ← List.append_assoc, ih, List.append_assoc]

/-- The registrar with its handlers inside of middlewares. -/
def wrapped (r : Registrar m) (mws : List (Middleware m)) : Registrar m := r.apply (fun h => compose h mws)

theorem wrapped_wrapped (r : Registrar m) (a b : List (Middleware m)) : wrapped (wrapped r b) a = wrapped r (a ++ b) := by
  simp [wrapped, Registrar.apply, compose_eq_wrap, wrap_append]

theorem wrapped_nil (r : Registrar m) : wrapped r [] = r := by
  simp [wrapped, Registrar.apply, compose_eq_wrap, wrap]

def wrapErrs (e : GoMap Status.Code (Handler m)) (mws : List (Middleware m)) : GoMap Status.Code (Handler m) :=
  e.map (fun x => (x.1, compose x.2 mws))

theorem wrapErrs_wrapErrs (e : GoMap Status.Code (Handler m)) (a b : List (Middleware m)) :
    wrapErrs (wrapErrs e b) a = wrapErrs e (a ++ b) := by
  simp [wrapErrs, compose_eq_wrap, wrap_append]

def wrapCatchers (e : List (Catcher m)) (mws : List (Middleware m)) : List (Catcher m) :=
  e.map (fun c => { c with Handler := compose c.Handler mws })

theorem wrapCatchers_wrapCatchers (e : List (Catcher m)) (a b : List (Middleware m)) :
    wrapCatchers (wrapCatchers e b) a = wrapCatchers e (a ++ b) := by
  simp [wrapCatchers, compose_eq_wrap, wrap_append]

/-- The result of `Initialize` without groups, with these middlewares. -/
theorem init_one (env : Env m) (root : Rec m) (errs) (h : root.children = []) :
    initRouter env ⟨[root], errs⟩ = (tableOf env (wrapped root.registrar root.middlewares)).map (fun t =>
      { mutators := root.mutators, catchers := env.sort (wrapCatchers root.catchers root.middlewares), table := t,
        errHandlers := wrapErrs errs root.middlewares }) := by
  rw [initRouter]
  simp only [List.getElem?_cons_zero, List.length_singleton, prepare_one' env root errs h 0, tableOf, finish]
  have : ∀ b : Bool, (wrapped root.registrar root.middlewares).isDynamic = b → root.registrar.isDynamic = b := fun b h => h
  by_cases hd : root.registrar.isDynamic = true
  · simp only [wrapped, Registrar.apply, hd, if_true]
    cases asRadixTree env _ <;> rfl
  · simp only [wrapped, Registrar.apply, hd, Bool.false_eq_true, if_false]
    rfl

/-- The state after `n` times. -/
structure After (root : Rec m) (errs : GoMap Status.Code (Handler m)) (n : Nat) (l : Live m) : Prop where
  routers : ∃ cs, l.world.routers = [{ root with registrar := wrapped root.registrar (rep root.middlewares n), catchers := cs }] ∧
    cs.Perm (wrapCatchers root.catchers (rep root.middlewares n)) ∧ (0 < n → cs.Pairwise (fun a b => a.Prefix.length ≥ b.Prefix.length))
  errs : l.world.errHandlers = wrapErrs errs (rep root.middlewares n)
  old : l.old = []
  cap : root.catchers.length ≤ l.cap

theorem after_step (grow : Nat → Nat → Nat) (env : Env m) {root : Rec m} {errs} (hc : root.children = []) {n : Nat} {l : Live m}
    (ha : After root errs n l) {table : Table m} (ht : tableOf env (wrapped root.registrar (rep root.middlewares (n + 1))) = some table) :
    ∃ l', initialized grow env l = some ({ mutators := root.mutators, table, array := 0, len := root.catchers.length }, l') ∧
      After root errs (n + 1) l' := by
  obtain ⟨⟨cs, h1, h2, -⟩, h3, h4, h5⟩ := ha
  have hlen : cs.length = root.catchers.length := by rw [h2.length_eq]; simp [wrapCatchers]
  have hreg : (wrapped root.registrar (rep root.middlewares n)).apply (fun h => compose h root.middlewares) =
      wrapped root.registrar (rep root.middlewares (n + 1)) := wrapped_wrapped _ _ _
  rw [initialized, h1]
  simp only [List.getElem?_cons_zero, List.length_singleton]
  rw [prepare_one env { root with registrar := wrapped root.registrar (rep root.middlewares n), catchers := cs } hc 0]
  simp only [List.getElem?_cons_zero, finish, List.length_map, hlen, hreg, ht, gt_iff_lt, Nat.not_lt.2 h5, if_false, h4,
    List.length_nil, List.set_cons_zero, h3]
  refine ⟨_, rfl, ⟨_, rfl, ?_, fun _ => env.sort_sorted _⟩, ?_, rfl, h5⟩
  · refine (env.sort_perm _).trans ?_
    have := h2.map (fun c : Catcher m => { c with Handler := compose c.Handler root.middlewares })
    refine this.trans ?_
    rw [show (wrapCatchers root.catchers (rep root.middlewares n)).map (fun c : Catcher m => { c with Handler := compose c.Handler root.middlewares })
      = wrapCatchers (wrapCatchers root.catchers (rep root.middlewares n)) root.middlewares from rfl, wrapCatchers_wrapCatchers]
    rfl
  · show wrapErrs (wrapErrs errs _) _ = _
    rw [wrapErrs_wrapErrs]; rfl

theorem after_times (grow : Nat → Nat → Nat) (env : Env m) {root : Rec m} {errs} (hc : root.children = []) (cap : Nat)
    (hcap : root.catchers.length ≤ cap) (tables : Nat → Table m) : ∀ n,
    (∀ k < n, tableOf env (wrapped root.registrar (rep root.middlewares (k + 1))) = some (tables k)) →
    ∃ l, times grow env ⟨⟨[root], errs⟩, [], cap⟩ n = some
        ((List.range n).map (fun k => { mutators := root.mutators, table := tables k, array := 0, len := root.catchers.length }), l) ∧
      After root errs n l := by
  intro n
  induction n with
  | zero =>
    intro _
    refine ⟨_, rfl, ⟨root.catchers, ?_, ?_, by simp⟩, ?_, rfl, hcap⟩
    · simp only [rep, wrapped_nil]
    · simp [wrapCatchers, rep, compose_eq_wrap, wrap]
    · simp [wrapErrs, rep, compose_eq_wrap, wrap]
  | succ n ih =>
    intro h
    obtain ⟨l, h1, h2⟩ := ih (fun k hk => h k (by omega))
    obtain ⟨l', h3, h4⟩ := after_step grow env hc h2 (h n (by omega))
    refine ⟨l', ?_, h4⟩
    rw [times, h1]
    simp only [h3, List.range_succ, List.map_append, List.map_cons, List.map_nil]

/-- What the handles are then. -/
theorem after_runtime {root : Rec m} {errs} {n : Nat} {l : Live m} (ha : After root errs n l) (table : Table m) :
    ∃ cs, cs.Perm (wrapCatchers root.catchers (rep root.middlewares n)) ∧ (0 < n → cs.Pairwise (fun a b => a.Prefix.length ≥ b.Prefix.length)) ∧
      ({ mutators := root.mutators, table, array := 0, len := root.catchers.length } : Handle m).runtime l =
        { mutators := root.mutators, table, catchers := cs, errHandlers := wrapErrs errs (rep root.middlewares n) } := by
  obtain ⟨⟨cs, h1, h2, h2'⟩, h3, h4, h5⟩ := ha
  have hlen : cs.length = root.catchers.length := by rw [h2.length_eq]; simp [wrapCatchers]
  refine ⟨cs, h2, h2', ?_⟩
  simp [Handle.runtime, h4, h1, h3, ← hlen]

theorem run_append (w : World m) (a b : List (Op m)) : run w (a ++ b) = (run w a).bind (run · b) := by
  induction a generalizing w with
  | nil => rfl
  | cons op a ih =>
    rw [List.cons_append, run, run]
    cases step w op with
    | none => rfl
    | some w' => exact ih w'

theorem run_uses (root : Rec m) (errs) (mws : List (Middleware m)) (k : Nat) :
    run ⟨[root], errs⟩ (List.replicate k (.use 0 mws)) = some ⟨[{ root with middlewares := root.middlewares ++ rep mws k }], errs⟩ := by
  induction k generalizing root with
  | zero => simp [run, rep]
  | succ k ih =>
    rw [List.replicate_succ, run]
    simp only [step, World.modify, List.getElem?_cons_zero, List.set_cons_zero]
    rw [ih]
    simp [rep]


/-! ### Catchers in another order -/

/-- The first catcher of a path is the longest one, so it does not depend on the order of catchers of the same length. -/
theorem find_sorted {a b : List (Catcher m)} (hp : a.Perm b) (ha : a.Pairwise (fun x y => x.Prefix.length ≥ y.Prefix.length))
    (hb : b.Pairwise (fun x y => x.Prefix.length ≥ y.Prefix.length)) (hn : (a.map (·.Prefix)).Nodup) (path : Bytes) :
    a.find? (fun c => c.Prefix.isPrefixOf path) = b.find? (fun c => c.Prefix.isPrefixOf path) := by
  have first : ∀ {l : List (Catcher m)} {x y : Catcher m}, l.Pairwise (fun x y => x.Prefix.length ≥ y.Prefix.length) →
      l.find? (fun c => c.Prefix.isPrefixOf path) = some x → y ∈ l → y.Prefix.isPrefixOf path = true → x.Prefix.length ≥ y.Prefix.length := by
    intro l x y hl hf hy hyp
    obtain ⟨-, p, q, e, hpre⟩ := List.find?_eq_some_iff_append.1 hf
    rw [e] at hy hl
    rcases List.mem_append.1 hy with h | h
    · have := hpre y h; simp [hyp] at this
    · rcases List.mem_cons.1 h with rfl | h
      · exact Nat.le_refl _
      · exact (List.pairwise_cons.1 (List.pairwise_append.1 hl).2.1).1 y h
  have inj : ∀ {l : List (Catcher m)}, (l.map (·.Prefix)).Nodup → ∀ {x y : Catcher m}, x ∈ l → y ∈ l → x.Prefix = y.Prefix → x = y := by
    intro l
    induction l with
    | nil => intro _ x y h; simp at h
    | cons z l ih =>
      intro hn x y hx hy e
      rw [List.map_cons, List.nodup_cons] at hn
      rcases List.mem_cons.1 hx with h1 | h1 <;> rcases List.mem_cons.1 hy with h2 | h2
      · rw [h1, h2]
      · exact absurd (h1 ▸ e ▸ List.mem_map_of_mem h2) hn.1
      · exact absurd (h2 ▸ e ▸ List.mem_map_of_mem h1) hn.1
      · exact ih hn.2 h1 h2 e
  cases h1 : a.find? (fun c => c.Prefix.isPrefixOf path) with
  | none =>
    symm
    rw [List.find?_eq_none] at h1 ⊢
    exact fun x hx => h1 x (hp.mem_iff.2 hx)
  | some x =>
    have hx := List.mem_of_find?_eq_some h1
    have hxp := List.find?_some h1
    cases h2 : b.find? (fun c => c.Prefix.isPrefixOf path) with
    | none =>
      rw [List.find?_eq_none] at h2
      exact absurd hxp (h2 x (hp.mem_iff.1 hx))
    | some y =>
      have hy := List.mem_of_find?_eq_some h2
      have hyp := List.find?_some h2
      have l1 := first ha h1 (hp.mem_iff.2 hy) hyp
      have l2 := first hb h2 (hp.mem_iff.1 hx) hxp
      have px : x.Prefix <+: path := List.isPrefixOf_iff_prefix.1 hxp
      have py : y.Prefix <+: path := List.isPrefixOf_iff_prefix.1 hyp
      rw [List.prefix_iff_eq_take] at px py
      rw [inj hn hx (hp.mem_iff.2 hy) (by rw [px, py]; congr 1; omega)]

/-- Routers which differ in the order of their catchers only. -/
theorem onError_find [Monad m] (F : Fold) (rt : Runtime m) (cs : List (Catcher m))
    (h : ∀ path, cs.find? (fun c => c.Prefix.isPrefixOf path) = rt.catchers.find? (fun c => c.Prefix.isPrefixOf path)) (req : Request) (err : GoErr) :
    (Runtime.onError' F { rt with catchers := cs } req err).1 = (Runtime.onError' F rt req err).1 := by
  unfold Runtime.onError'
  split
  · rfl
  · simp only [h]
    split
    · rfl
    · cases err with
      | http e =>
        simp only [Runtime.retrieveErrorHandler]
        split <;> rfl
      | _ => rfl

theorem onRequest_find [Monad m] (F : Fold) (rt : Runtime m) (cs : List (Catcher m))
    (h : ∀ path, cs.find? (fun c => c.Prefix.isPrefixOf path) = rt.catchers.find? (fun c => c.Prefix.isPrefixOf path)) (req : Request) :
    (Runtime.onRequest F { rt with catchers := cs } req).map Prod.fst = (Runtime.onRequest F rt req).map Prod.fst := by
  have hd : ∀ req e, (Runtime.dispatch F { rt with catchers := cs } req e).1 = (Runtime.dispatch F rt req e).1 := by
    intro req e
    unfold Runtime.dispatch
    simp only
    split
    · exact onError_find F rt cs h _ _
    · rfl
  unfold Runtime.onRequest Runtime.onRequest'
  simp only [Runtime.runMutators]
  split
  · split
    · simp only [Option.map_some, onError_find F rt cs h]
    · simp only [Option.map_some, hd]
  · split
    · rfl
    · simp only [Option.map_some, onError_find F rt cs h]
    · simp only [Option.map_some, hd]

end Indigo.Router.Again
