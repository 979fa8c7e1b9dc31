/-
Lemmas on virtual hosts.
-/
import Verif.Spec.Virtual

namespace Indigo.Virtual
open Indigo.Spec.Virtual

theorem loop_other (d : Bytes) (h1 : ¬ b!":80" <:+ d) (h2 : ¬ b!":443" <:+ d) :
    ∀ i, i ≤ d.length → Domain.loop d i = d := by
  intro i
  induction i with
  | zero => intro _; rfl
  | succ i ih =>
    intro hi
    unfold Domain.loop
    by_cases hdot : d.getD i 0 = DOT
    · simp only [hdot, if_true]
    · simp only [hdot, if_false]
      by_cases hc : d.getD i 0 = COLON
      · simp only [hc, if_true]
        have hd : d.drop i = COLON :: d.drop (i + 1) := by
          rw [List.drop_eq_getElem_cons (by omega)]
          congr 1
          rw [← hc, List.getD_eq_getElem?_getD, List.getElem?_eq_getElem (by omega)]; rfl
        have hs : d.drop i <:+ d := List.drop_suffix i d
        by_cases hp : d.drop (i + 1) = b!"80" ∨ d.drop (i + 1) = b!"443"
        · exfalso
          cases hp with
          | inl hp => rw [hp] at hd; rw [hd] at hs; exact h1 hs
          | inr hp => rw [hp] at hd; rw [hd] at hs; exact h2 hs
        · rw [if_neg hp]
      · simp only [hc, if_false]
        exact ih (by omega)

theorem getD_right (p q : Bytes) (i : Nat) : (p ++ q).getD (p.length + i) 0 = q.getD i 0 := by
  rw [List.getD_eq_getElem?_getD, List.getElem?_append_right (by omega), List.getD_eq_getElem?_getD]
  congr 2
  omega

theorem loop_80 (p : Bytes) : Domain.loop (p ++ b!":80") (p ++ b!":80").length = p := by
  have e : (p ++ b!":80").length = p.length + 2 + 1 := by simp
  rw [e]
  unfold Domain.loop
  rw [getD_right p b!":80" 2]
  unfold Domain.loop
  rw [getD_right p b!":80" 1]
  unfold Domain.loop
  rw [show (p ++ b!":80").getD p.length 0 = COLON from getD_right p b!":80" 0]
  simp [DOT, COLON]

theorem loop_443 (p : Bytes) : Domain.loop (p ++ b!":443") (p ++ b!":443").length = p := by
  have e : (p ++ b!":443").length = p.length + 3 + 1 := by simp
  rw [e]
  unfold Domain.loop
  rw [getD_right p b!":443" 3]
  unfold Domain.loop
  rw [getD_right p b!":443" 2]
  unfold Domain.loop
  rw [getD_right p b!":443" 1]
  unfold Domain.loop
  rw [show (p ++ b!":443").getD p.length 0 = COLON from getD_right p b!":443" 0]
  simp [DOT, COLON]

/-- `Normalize` removes `www.` and the default ports. -/
theorem normalize_eq (h : Bytes) : Domain.normalize h = bare h := by
  unfold Domain.normalize bare
  have hw : (if b!"www.".isPrefixOf h then h.drop 4 else h) = (if b!"www." <+: h then h.drop 4 else h) := by
    by_cases hp : b!"www." <+: h
    · rw [if_pos hp, if_pos (List.isPrefixOf_iff_prefix.2 hp)]
    · rw [if_neg hp, if_neg (fun hc => hp (List.isPrefixOf_iff_prefix.1 hc))]
  rw [hw]
  generalize (if b!"www." <+: h then h.drop 4 else h) = d
  simp only
  by_cases h1 : b!":80" <:+ d
  · rw [if_pos h1]
    obtain ⟨p, rfl⟩ := h1
    rw [loop_80]; simp
  · rw [if_neg h1]
    by_cases h2 : b!":443" <:+ d
    · rw [if_pos h2]
      obtain ⟨p, rfl⟩ := h2
      rw [loop_443]; simp
    · rw [if_neg h2]
      exact loop_other d h1 h2 _ (Nat.le_refl _)

theorem trimPort_any (d : Bytes) :
    Domain.trimPort d = b!"0.0.0.0" ↔ d = b!"0.0.0.0" ∨ b!"0.0.0.0:" <+: d := by
  unfold Domain.trimPort
  have cs : ∀ (d a b : Bytes), cut COLON d = some (a, b) → d = a ++ COLON :: b := by
    intro d
    induction d with
    | nil => intro a b h; simp [cut] at h
    | cons c d ih =>
      intro a b h
      unfold cut at h
      by_cases hc : c = COLON
      · rw [if_pos hc] at h; simp at h; rw [h.1, h.2, hc]; rfl
      · rw [if_neg hc] at h
        cases hcut : cut COLON d with
        | none => rw [hcut] at h; simp at h
        | some r =>
          obtain ⟨x, y⟩ := r
          rw [hcut] at h; simp at h
          rw [← h.1, ← h.2, ih x y hcut]; rfl
  constructor
  · cases hc : cut COLON d with
    | none => intro h; exact Or.inl h
    | some r =>
      obtain ⟨a, b⟩ := r
      intro h
      have ha : a = b!"0.0.0.0" := h
      right
      rw [cs d a b hc, ha]
      exact ⟨b, rfl⟩
  · rintro (h | ⟨b, h⟩)
    · subst h; rfl
    · subst h; rfl

theorem isAny_iff (h : Bytes) : Domain.trimPort (Domain.normalize h) = Address.DefaultAddr ↔ IsAny h := by
  rw [normalize_eq]; exact trimPort_any (bare h)

theorem build_eq {α : Type} (ops : List (Op α)) :
    (build ops).routers = (hostsRegistered ops).map (fun e => (bare e.1, e.2)) ∧
    (build ops).defaultRouter = (defaultsRegistered ops).getLast? := by
  have key : ∀ (ops : List (Op α)) (f : Fabric α),
      (ops.foldl step f).routers = f.routers ++ (hostsRegistered ops).map (fun e => (bare e.1, e.2)) ∧
      (ops.foldl step f).defaultRouter = ((defaultsRegistered ops).getLast?).or f.defaultRouter := by
    intro ops
    induction ops with
    | nil => intro f; simp [hostsRegistered, defaultsRegistered]
    | cons op ops ih =>
      intro f
      rw [List.foldl_cons]
      obtain ⟨h1, h2⟩ := ih (step f op)
      rw [h1, h2]
      cases op with
      | host h r =>
        by_cases ha : IsAny h
        · have hs : step f (.host h r) = { f with defaultRouter := some r } := by
            unfold step; simp only; rw [if_pos ((isAny_iff h).2 ha)]
          have e1 : hostsRegistered (Op.host h r :: ops) = hostsRegistered ops := by simp [hostsRegistered, ha]
          have e2 : defaultsRegistered (Op.host h r :: ops) = r :: defaultsRegistered ops := by
            simp [defaultsRegistered, ha]
          rw [hs, e1, e2, List.getLast?_cons]
          refine ⟨rfl, ?_⟩
          cases (defaultsRegistered ops).getLast? <;> rfl
        · have hs : step f (.host h r) = { f with routers := f.routers ++ [(bare h, r)] } := by
            unfold step; simp only; rw [if_neg (fun hc => ha ((isAny_iff h).1 hc)), normalize_eq]
          have e1 : hostsRegistered (Op.host h r :: ops) = (h, r) :: hostsRegistered ops := by
            simp [hostsRegistered, ha]
          have e2 : defaultsRegistered (Op.host h r :: ops) = defaultsRegistered ops := by
            simp [defaultsRegistered, ha]
          rw [hs, e1, e2]
          simp
      | default r =>
        have e1 : hostsRegistered (Op.default r :: ops) = hostsRegistered ops := by simp [hostsRegistered]
        have e2 : defaultsRegistered (Op.default r :: ops) = r :: defaultsRegistered ops := by simp [defaultsRegistered]
        rw [e1, e2, List.getLast?_cons]
        refine ⟨rfl, ?_⟩
        cases (defaultsRegistered ops).getLast? <;> rfl
  obtain ⟨h1, h2⟩ := key ops {}
  refine ⟨by simpa [build] using h1, ?_⟩
  rw [build, h2]
  cases (defaultsRegistered ops).getLast? <;> rfl

variable {m : Type → Type} {ρ : Type}

theorem find_none (F : Fold) (host : Bytes) (i : Nat) (rs : List (Bytes × ρ)) (h : ∀ r ∈ rs, F.eq r.1 host = false) :
    find F host i rs = none := by
  induction rs generalizing i with
  | nil => rfl
  | cons r rs ih =>
    unfold find
    rw [if_neg (by simp [h r (by simp)])]
    exact ih _ (fun r hr => h r (by simp [hr]))

theorem find_first (F : Fold) (host : Bytes) (i : Nat) (as : List (Bytes × ρ)) (r : Bytes × ρ) (bs : List (Bytes × ρ))
    (ha : ∀ r ∈ as, F.eq r.1 host = false) (hr : F.eq r.1 host = true) :
    find F host i (as ++ r :: bs) = some (i + as.length) := by
  induction as generalizing i with
  | nil => simp [find, hr]
  | cons a as ih =>
    rw [List.cons_append]
    unfold find
    rw [if_neg (by simp [ha a (by simp)]), ih _ (fun r hr => ha r (by simp [hr]))]
    simp; omega

theorem valuesLoop_eq (F : Fold) (key : Bytes) (ps : List Pair) (acc : List Bytes) :
    Storage.valuesLoop F key ps acc = acc ++ (ps.filter (fun p => F.eq p.Key key)).map (·.Value) := by
  induction ps generalizing acc with
  | nil => simp [Storage.valuesLoop]
  | cons p ps ih =>
    unfold Storage.valuesLoop
    rw [ih, List.filter_cons]
    by_cases h : F.eq p.Key key = true
    · simp [h]
    · simp [h]

/-- The values of `Host`, for header names of host characters. -/
theorem hosts_eq (F : Fold) (req : Request) (hn : ∀ p ∈ req.Headers.pairs, ∀ c ∈ p.Key, isPlainTok c = true) :
    (req.Headers.values F b!"host").1 = hostsOf req := by
  unfold Storage.values hostsOf
  simp only
  rw [valuesLoop_eq, List.nil_append]
  congr 1
  apply List.filter_congr
  intro p hp
  rw [Bool.eq_iff_iff, F.eq_iff_lower (hn p hp) (by decide)]
  simp only [beq_iff_eq]
  have : lower b!"host" = b!"host" := by decide
  rw [this]

theorem values_pairs (F : Fold) (s : Storage) (k : Bytes) : (s.values F k).2.pairs = s.pairs := rfl

variable [Monad m]

/-! ### What each router gets -/

/-- The event as the chosen router gets it. -/
def passed (F : Fold) : Event → Event
  | .request req => .request { req with Headers := (req.Headers.values F b!"host").2 }
  | .error req err => .error { req with Headers := (req.Headers.values F b!"host").2 } err

/-- The choice for an event. -/
def choice (F : Fold) (r : Runtime ρ) (e : Event) : Choice := (getRouter F r e.req.Headers).1

omit [Monad m] in
theorem find_domains (F : Fold) (host : Bytes) : ∀ (rs rs' : List (Bytes × ρ)) (i : Nat), rs.map Prod.fst = rs'.map Prod.fst →
    find F host i rs = find F host i rs' := by
  intro rs
  induction rs with
  | nil => intro rs' i h; cases rs' with
    | nil => rfl
    | cons r rs' => simp at h
  | cons r rs ih =>
    intro rs' i h
    cases rs' with
    | nil => simp at h
    | cons r' rs' =>
      simp only [List.map_cons, List.cons.injEq] at h
      rw [find, find, h.1, ih rs' (i + 1) h.2]

omit [Monad m] in
theorem choice_domains (F : Fold) {r r' : Runtime ρ} (h : r.routers.map Prod.fst = r'.routers.map Prod.fst)
    (hd : r.defaultRouter.isSome = r'.defaultRouter.isSome) (e : Event) : choice F r e = choice F r' e := by
  have : ∀ c, orDefault r c = orDefault r' c := by
    intro c
    unfold orDefault
    cases h1 : r.defaultRouter <;> cases h2 : r'.defaultRouter <;> simp [h1, h2] at hd ⊢
  unfold choice getRouter
  simp only [find_domains F _ _ _ 0 h, this]

/-- The events for a choice, as they are passed. -/
def share (F : Fold) (r : Runtime ρ) (es : List Event) (c : Choice) : List Event :=
  (es.filter (fun e => choice F r e == c)).map (passed F)

theorem next_routers (F : Fold) (I : RouterImpl m ρ) (r : Runtime ρ) (e : Event) :
    (next (impl F I) r e).routers = r.routers.mapIdx (fun i p => (p.1, after I p.2 (share F r [e] (.host i)))) ∧
    (next (impl F I) r e).defaultRouter = r.defaultRouter.map (fun x => after I x (share F r [e] .default)) := by
  have key : ∀ (req : Request) (call : ρ → m (Fields × Request) × ρ) (c : Choice), c = choice F r e →
      (∀ x, (call x).2 = next I x (passed F e)) →
      (dispatch r req call c).2.routers = r.routers.mapIdx (fun i p => (p.1, after I p.2 (share F r [e] (.host i)))) ∧
      (dispatch r req call c).2.defaultRouter = r.defaultRouter.map (fun x => after I x (share F r [e] .default)) := by
    intro req call c hc hcall
    have hs : ∀ c', share F r [e] c' = if c = c' then [passed F e] else [] := by
      intro c'
      unfold share
      rw [List.filter_cons, List.filter_nil, ← hc]
      by_cases h : c = c' <;> simp [h]
    simp only [hs]
    cases c with
    | refuse code =>
      constructor
      · show r.routers = _
        apply List.ext_getElem?
        intro i
        rw [List.getElem?_mapIdx]
        cases r.routers[i]? <;> simp [after]
      · show r.defaultRouter = _
        cases r.defaultRouter <;> simp [after]
    | default =>
      constructor
      · have : (Virtual.dispatch r req call .default).2.routers = r.routers := by
          unfold Virtual.dispatch; cases r.defaultRouter <;> rfl
        rw [this]
        apply List.ext_getElem?
        intro i
        rw [List.getElem?_mapIdx]
        cases r.routers[i]? <;> simp [after]
      · unfold Virtual.dispatch
        cases hd : r.defaultRouter with
        | none => simp [hd]
        | some x => simp [hcall, after]
    | host i =>
      constructor
      · apply List.ext_getElem?
        intro j
        rw [List.getElem?_mapIdx]
        unfold Virtual.dispatch
        cases hi : r.routers[i]? with
        | none =>
          simp only [hi]
          cases hj : r.routers[j]? with
          | none => rfl
          | some p =>
            have : i ≠ j := by rintro rfl; rw [hi] at hj; simp at hj
            simp [this, after]
        | some p =>
          obtain ⟨d, x⟩ := p
          have hlt : i < r.routers.length := (List.getElem?_eq_some_iff.1 hi).1
          by_cases hij : i = j
          · subst hij; simp [hlt, hcall, after]
          · simp only [hi, List.getElem?_set_ne hij]
            cases r.routers[j]? <;> simp [hij, after]
      · unfold Virtual.dispatch
        have : ∀ (o : Option ρ), o = o.map (fun x => after I x (if Choice.host i = Choice.default then [passed F e] else [])) := by
          intro o; cases o <;> simp [after]
        cases hi : r.routers[i]? <;> simp only [hi] <;> exact this _
  cases e with
  | request req => exact key _ _ _ rfl (fun x => rfl)
  | error req err => exact key _ _ _ rfl (fun x => rfl)

omit [Monad m] in
theorem after_append (I : RouterImpl m ρ) (x : ρ) (a b : List Event) : after I x (a ++ b) = after I (after I x a) b := by
  simp [after]

/-- The routers of a virtual router have got what was meant for them, and nothing else. -/
theorem after_routers (F : Fold) (I : RouterImpl m ρ) (r : Runtime ρ) (es : List Event) :
    (after (impl F I) r es).routers = r.routers.mapIdx (fun i p => (p.1, after I p.2 (share F r es (.host i)))) ∧
    (after (impl F I) r es).defaultRouter = r.defaultRouter.map (fun x => after I x (share F r es .default)) := by
  induction es generalizing r with
  | nil =>
    constructor
    · apply List.ext_getElem?
      intro i
      rw [List.getElem?_mapIdx]
      show r.routers[i]? = _
      cases r.routers[i]? <;> simp [share, after]
    · show r.defaultRouter = _
      cases r.defaultRouter <;> simp [share, after]
  | cons e es ih =>
    obtain ⟨h1, h2⟩ := next_routers F I r e
    obtain ⟨g1, g2⟩ := ih (next (impl F I) r e)
    have hc : ∀ e', choice F (next (impl F I) r e) e' = choice F r e' := by
      intro e'
      apply choice_domains
      · rw [h1]
        apply List.ext_getElem?
        intro i
        simp only [List.getElem?_map, List.getElem?_mapIdx]
        cases r.routers[i]? <;> rfl
      · rw [h2]; cases r.defaultRouter <;> rfl
    have hs : ∀ c, share F (next (impl F I) r e) es c = share F r es c := by
      intro c; unfold share; simp only [hc]
    have hcons : ∀ c, share F r (e :: es) c = share F r [e] c ++ share F r es c := by
      intro c
      unfold share
      rw [← List.map_append, ← List.filter_append]; rfl
    have ha : after (impl F I) r (e :: es) = after (impl F I) (next (impl F I) r e) es := rfl
    rw [ha, g1, g2, h1, h2]
    simp only [hs, hcons, after_append]
    constructor
    · apply List.ext_getElem?
      intro i
      simp only [List.getElem?_mapIdx]
      cases r.routers[i]? <;> rfl
    · cases r.defaultRouter <;> rfl

end Indigo.Virtual
