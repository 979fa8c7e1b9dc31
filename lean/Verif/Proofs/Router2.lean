import Verif.Proofs.Router

namespace Indigo.Router

open Indigo.Spec.Router

variable {m : Type → Type}

/-! ### Places -/

/-- The structure of all places. -/
structure Places (ps : List Place) : Prop where
  root : ps[0]? = some ⟨[0], []⟩
  other : ∀ k p, ps[k]? = some p → k = 0 ∨ ∃ r q, r < k ∧ ps[r]? = some q ∧ p.line = q.line ++ [k]

theorem places_snoc (ops : List (Op m)) (op : Op m) :
    places (ops ++ [op]) = match op with
      | .group r p =>
        match (places ops)[r]? with
        | some parent => places ops ++ [⟨parent.line ++ [(places ops).length], parent.pre ++ p⟩]
        | none => places ops
      | _ => places ops := by
  simp only [places, List.foldl_append, List.foldl_cons, List.foldl_nil]
  cases op <;> rfl

theorem snoc_induction {α : Type _} {P : List α → Prop} (nil : P []) (snoc : ∀ l a, P l → P (l ++ [a])) : ∀ l, P l := by
  intro l
  rw [← l.reverse_reverse]
  induction l.reverse with
  | nil => exact nil
  | cons a l ih => rw [List.reverse_cons]; exact snoc _ _ ih

theorem places_ok (ops : List (Op m)) : Places (places ops) := by
  induction ops using snoc_induction with
  | nil =>
    refine ⟨rfl, ?_⟩
    intro k p h
    cases k with
    | zero => exact Or.inl rfl
    | succ k => simp [places] at h
  | snoc ops op ih =>
    rw [places_snoc]
    cases op with
    | group r pre =>
      simp only
      cases hr : (places ops)[r]? with
      | none => exact ih
      | some parent =>
        simp only
        have hlt : r < (places ops).length := (List.getElem?_eq_some_iff.1 hr).1
        have h0 : 0 < (places ops).length := by omega
        refine ⟨by rw [List.getElem?_append_left h0]; exact ih.root, ?_⟩
        intro k p hk
        by_cases hkl : k < (places ops).length
        · rw [List.getElem?_append_left hkl] at hk
          rcases ih.other k p hk with h | ⟨r', q, h1, h2, h3⟩
          · exact Or.inl h
          · exact Or.inr ⟨r', q, h1, by rw [List.getElem?_append_left (by omega)]; exact h2, h3⟩
        · rw [List.getElem?_append_right (by omega)] at hk
          have hk' : k - (places ops).length = 0 := by
            refine Decidable.byContradiction fun hn => ?_
            rw [List.getElem?_eq_none (by simp; omega)] at hk
            simp at hk
          have hkk : k = (places ops).length := by omega
          rw [hk'] at hk
          simp at hk
          subst hk
          exact Or.inr ⟨r, parent, by omega, by rw [List.getElem?_append_left hlt]; exact hr, by simp [hkk]⟩
    | _ => exact ih

theorem Places.line {ps : List Place} (h : Places ps) : ∀ (k : Nat) (p : Place), ps[k]? = some p →
    (∃ l, p.line = l ++ [k]) ∧ (∃ l, p.line = 0 :: l) ∧ (∀ x ∈ p.line, x ≤ k) ∧ p.line.Pairwise (· < ·) := by
  intro k
  induction k using Nat.strongRecOn with
  | _ k ih =>
    intro p hp
    rcases h.other k p hp with rfl | ⟨r, q, hr, hq, hl⟩
    · rw [h.root] at hp
      simp at hp
      subst hp
      exact ⟨⟨[], rfl⟩, ⟨[], rfl⟩, by simp, by simp⟩
    · obtain ⟨-, ⟨l, h2⟩, h3, h4⟩ := ih r hr q hq
      rw [hl]
      refine ⟨⟨_, rfl⟩, ⟨l ++ [k], by rw [h2]; rfl⟩, ?_, ?_⟩
      · intro x hx
        rcases List.mem_append.1 hx with hx | hx
        · have := h3 x hx; omega
        · simp at hx; omega
      · refine List.pairwise_append.2 ⟨h4, by simp, ?_⟩
        intro a ha b hb
        simp at hb
        have := h3 a ha
        omega

/-- A line's beginning is the line of the place it ends with. -/
theorem Places.prefix {ps : List Place} (h : Places ps) : ∀ (k : Nat) (p : Place), ps[k]? = some p →
    ∀ a y b, p.line = a ++ y :: b → ∃ q, ps[y]? = some q ∧ q.line = a ++ [y] := by
  intro k
  induction k using Nat.strongRecOn with
  | _ k ih =>
    intro p hp a y b hab
    obtain ⟨⟨l, hl⟩, -⟩ := h.line k p hp
    rcases List.eq_nil_or_concat b with rfl | ⟨b', z, rfl⟩
    · have hy : y = k := by
        have e : (a ++ [y]).getLast? = (l ++ [k]).getLast? := by rw [← hab, hl]
        simpa using e
      subst hy
      exact ⟨p, hp, hab⟩
    · rcases h.other k p hp with rfl | ⟨r, q, hr, hq, hl'⟩
      · rw [h.root] at hp
        simp at hp
        subst hp
        have := congrArg List.length hab
        simp at this
        omega
      · have e : a ++ y :: b' = q.line := by
          have : (a ++ y :: b') ++ [z] = q.line ++ [k] := by rw [← hl', hab]; simp
          exact (List.append_inj' this rfl).1
        exact ih r hr q hq a y b' e.symm

theorem mem_kids {ops : List (Op m)} {r c : Nat} :
    c ∈ kids ops r ↔ ∃ p, (places ops)[c]? = some p ∧ p.line.dropLast.getLast? = some r := by
  simp only [kids, List.mem_filter, List.mem_range]
  constructor
  · rintro ⟨hc, h⟩
    cases hp : (places ops)[c]? with
    | none => rw [hp] at h; simp at h
    | some p => rw [hp] at h; exact ⟨p, rfl, by simpa using h⟩
  · rintro ⟨p, hp, h⟩
    exact ⟨(List.getElem?_eq_some_iff.1 hp).1, by simp [hp, h]⟩

theorem kids_nodup (ops : List (Op m)) (r : Nat) : (kids ops r).Nodup :=
  List.Nodup.sublist List.filter_sublist List.nodup_range

theorem kids_gt {ops : List (Op m)} {r c : Nat} (h : c ∈ kids ops r) : r < c ∧ c < (places ops).length := by
  obtain ⟨p, hp, hl⟩ := mem_kids.1 h
  obtain ⟨⟨l, h1⟩, -, h3, h4⟩ := (places_ok ops).line c p hp
  rw [h1] at hl h4
  simp at hl
  refine ⟨?_, (List.getElem?_eq_some_iff.1 hp).1⟩
  have := (List.pairwise_append.1 h4).2.2 r (List.mem_of_getLast? hl) c (by simp)
  exact this

/-! ### What is registered under a router -/

/-- The part of a line after a router. -/
def after (k : Nat) : List Nat → Option (List Nat)
  | [] => none
  | x :: xs => if x = k then some xs else after k xs

theorem after_none {k : Nat} {l : List Nat} (h : k ∉ l) : after k l = none := by
  induction l with
  | nil => rfl
  | cons x xs ih =>
    simp at h
    have : ¬ x = k := fun e => h.1 e.symm
    simp [after, this, ih h.2]

theorem after_append {k : Nat} (a b : List Nat) (h : k ∉ a) : after k (a ++ k :: b) = some b := by
  induction a with
  | nil => simp [after]
  | cons x xs ih =>
    simp at h
    have : ¬ x = k := fun e => h.1 e.symm
    simp [after, this, ih h.2]

/-- The line of the router a call is made on. -/
def lineOf (ops : List (Op m)) (r : Nat) : List Nat := ((places ops)[r]?.map Place.line).getD []

section
variable {β : Type} (wr : List (Middleware m) → β → β) (items : Op m → List β)

/-- What a call registers, as seen from router `k`: inside of the middlewares of `k` and of the groups in it. -/
def seen (ops : List (Op m)) (k : Nat) (op : Op m) : List β :=
  match after k (lineOf ops op.on) with
  | none => []
  | some rest => (items op).map (wr ((k :: rest).flatMap (uses ops)))

/-- What calls on the router itself register. -/
def own (ops : List (Op m)) (k : Nat) : List β :=
  ops.flatMap (fun op => if op.on = k then items op else [])

/-- Everything under a router. -/
def under (ops : List (Op m)) (k : Nat) : List β := ops.flatMap (seen wr items ops k)

theorem flatMap_single {γ : Type} (l : List Nat) (hn : l.Nodup) (c : Nat) (hc : c ∈ l) (f : Nat → List γ)
    (h : ∀ x ∈ l, x ≠ c → f x = []) : l.flatMap f = f c := by
  induction l with
  | nil => simp at hc
  | cons x l ih =>
    simp only [List.nodup_cons] at hn
    rw [List.flatMap_cons]
    rcases List.mem_cons.1 hc with rfl | hc
    · have : l.flatMap f = [] := by
        rw [List.flatMap_eq_nil_iff]
        intro y hy
        exact h y (by simp [hy]) (fun e => hn.1 (e ▸ hy))
      simp [this]
    · rw [h x (by simp) (fun e => hn.1 (e ▸ hc)), ih hn.2 hc (fun y hy => h y (by simp [hy]))]
      rfl

theorem seen_eq (hwr : ∀ a b x, wr (a ++ b) x = wr a (wr b x)) (ops : List (Op m)) (k : Nat)
    (op : Op m) (hop : op.on < (places ops).length) :
    seen wr items ops k op =
      ((if op.on = k then items op else []) ++ (kids ops k).flatMap (fun c => seen wr items ops c op)).map
        (wr (uses ops k)) := by
  obtain ⟨p, hp⟩ : ∃ p, (places ops)[op.on]? = some p := ⟨_, List.getElem?_eq_getElem hop⟩
  have hP := places_ok ops
  obtain ⟨⟨l, hl⟩, -, hle, hlt⟩ := hP.line _ _ hp
  have hline : lineOf ops op.on = p.line := by simp [lineOf, hp]
  -- a child of `k` in the line follows `k`
  have hkid : ∀ c ∈ kids ops k, c ∈ p.line → ∃ a b, p.line = a ++ k :: c :: b := by
    intro c hc hcl
    obtain ⟨a, b, hab⟩ := List.append_of_mem hcl
    obtain ⟨q, hq, hql⟩ := hP.prefix _ _ hp a c b hab
    obtain ⟨q', hq', hlast⟩ := mem_kids.1 hc
    rw [hq] at hq'
    simp at hq'
    subst hq'
    rw [hql] at hlast
    simp at hlast
    obtain ⟨a', rfl⟩ : ∃ a', a = a' ++ [k] := by
      rcases List.eq_nil_or_concat a with rfl | ⟨a', z, rfl⟩
      · simp at hlast
      · simp at hlast; exact ⟨a', by simp [hlast]⟩
    exact ⟨a', b, by simp [hab]⟩
  by_cases hk : k ∈ p.line
  · obtain ⟨a, b, hab⟩ := List.append_of_mem hk
    have hka : k ∉ a := by
      intro hka
      rw [hab] at hlt
      exact absurd ((List.pairwise_append.1 hlt).2.2 k hka k (by simp)) (by omega)
    have hafter : after k p.line = some b := by rw [hab]; exact after_append a b hka
    cases b with
    | nil =>
      have hkr : op.on = k := by
        have e : (a ++ [k]).getLast? = (l ++ [op.on]).getLast? := by rw [← hab, hl]
        simpa using e.symm
      have hz : (kids ops k).flatMap (fun c => seen wr items ops c op) = [] := by
        rw [List.flatMap_eq_nil_iff]
        intro c hc
        have : c ∉ p.line := fun hcl => by
          have h1 := hle c hcl
          have := (kids_gt hc).1
          omega
        simp [seen, hline, after_none this]
      rw [hz, if_pos hkr, List.append_nil]
      simp only [seen, hline, hafter, List.append_nil, List.flatMap_cons, List.flatMap_nil]
    | cons c b =>
      have hkr : ¬ op.on = k := by
        intro hkr
        rw [hab, ] at hle hlt
        have h1 := hle c (by simp)
        have h2 := (List.pairwise_append.1 hlt).2.1
        simp at h2
        omega
      obtain ⟨q, hq, hql⟩ := hP.prefix _ _ hp (a ++ [k]) c b (by simp [hab])
      have hc : c ∈ kids ops k := mem_kids.2 ⟨q, hq, by rw [hql]; simp⟩
      have hca : c ∉ a ++ [k] := by
        intro hx
        have e : p.line = (a ++ [k]) ++ c :: b := by simp [hab]
        rw [e] at hlt
        exact absurd ((List.pairwise_append.1 hlt).2.2 c hx c (by simp)) (by omega)
      have hz : (kids ops k).flatMap (fun c => seen wr items ops c op) = seen wr items ops c op := by
        refine flatMap_single _ (kids_nodup ops k) c hc _ ?_
        intro x hx hxc
        have : x ∉ p.line := by
          intro hxl
          obtain ⟨a', b', hab'⟩ := hkid x hx hxl
          have hka' : k ∉ a' := by
            intro hka
            rw [hab'] at hlt
            exact absurd ((List.pairwise_append.1 hlt).2.2 k hka k (by simp)) (by omega)
          have h1 : after k p.line = some (x :: b') := by rw [hab']; exact after_append _ _ hka'
          rw [hafter] at h1
          simp at h1
          exact hxc h1.1.symm
        simp [seen, hline, after_none this]
      rw [hz, if_neg hkr, List.nil_append]
      have hac : after c p.line = some b := by
        have e : p.line = (a ++ [k]) ++ c :: b := by simp [hab]
        rw [e]; exact after_append _ _ hca
      simp only [seen, hline, hafter, hac, List.map_map]
      refine List.map_congr_left (fun x _ => ?_)
      simp only [Function.comp]
      rw [← hwr]
      rfl
  · have hkr : ¬ op.on = k := fun e => hk (by rw [hl, ← e]; simp)
    have hz : (kids ops k).flatMap (fun c => seen wr items ops c op) = [] := by
      rw [List.flatMap_eq_nil_iff]
      intro c hc
      have : c ∉ p.line := fun hcl => by
        obtain ⟨a, b, hab⟩ := hkid c hc hcl
        exact hk (by rw [hab]; simp)
      simp [seen, hline, after_none this]
    rw [hz, if_neg hkr]
    simp [seen, hline, after_none hk]

theorem flatMap_append_perm {γ δ : Type _} (l : List γ) (f g : γ → List δ) :
    (l.flatMap (fun x => f x ++ g x)).Perm (l.flatMap f ++ l.flatMap g) := by
  induction l with
  | nil => exact List.Perm.refl _
  | cons x l ih =>
    simp only [List.flatMap_cons, List.append_assoc]
    refine List.Perm.append_left _ ?_
    refine (ih.append_left (g x)).trans ?_
    rw [← List.append_assoc, ← List.append_assoc]
    exact List.Perm.append_right _ List.perm_append_comm

theorem flatMap_comm_perm {γ ε δ : Type _} (l : List γ) (k : List ε) (f : γ → ε → List δ) :
    (l.flatMap (fun x => k.flatMap (f x))).Perm (k.flatMap (fun y => l.flatMap (fun x => f x y))) := by
  induction k with
  | nil => simp
  | cons y k ih =>
    simp only [List.flatMap_cons]
    exact (flatMap_append_perm l _ _).trans (ih.append_left _)

/-- What is under a router is what is its own and what is under its groups, inside of its middlewares. -/
theorem under_perm (hwr : ∀ a b x, wr (a ++ b) x = wr a (wr b x)) (ops : List (Op m))
    (href : ∀ op ∈ ops, op.on < (places ops).length) (k : Nat) :
    (under wr items ops k).Perm
      ((own items ops k ++ (kids ops k).flatMap (under wr items ops)).map (wr (uses ops k))) := by
  have e : under wr items ops k = (ops.flatMap (fun op => (if op.on = k then items op else []) ++
      (kids ops k).flatMap (fun c => seen wr items ops c op))).map (wr (uses ops k)) := by
    rw [under, List.map_flatMap]
    have : ∀ l : List (Op m), (∀ op ∈ l, op.on < (places ops).length) → l.flatMap (seen wr items ops k) =
        l.flatMap (fun op => ((if op.on = k then items op else []) ++
          (kids ops k).flatMap (fun c => seen wr items ops c op)).map (wr (uses ops k))) := by
      intro l hl
      induction l with
      | nil => rfl
      | cons op l ih =>
        rw [List.flatMap_cons, List.flatMap_cons, ih (fun o ho => hl o (by simp [ho])),
          seen_eq wr items hwr ops k op (hl op (by simp))]
    exact this ops href
  rw [e]
  refine List.Perm.map _ ?_
  refine (flatMap_append_perm ops _ _).trans ?_
  exact (flatMap_comm_perm ops (kids ops k) (fun op c => seen wr items ops c op)).append_left _

end
end Indigo.Router
