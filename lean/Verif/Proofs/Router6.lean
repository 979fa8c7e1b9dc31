/-
Mutators and TRACE.
-/
import Verif.Proofs.Router5

namespace Indigo.Router

open Indigo.Spec.Router

variable {m : Type → Type}

theorem mutatorsIn_perm (ops : List (Op m)) (href : ∀ op ∈ ops, op.on < (places ops).length) :
    ∀ fuel k, k < (places ops).length → (places ops).length ≤ fuel + k →
      (mutatorsIn ops fuel k).Perm (under (fun _ x => x) (mutItems ops) ops k) := by
  intro fuel
  induction fuel with
  | zero => intro k hk hf; omega
  | succ fuel ih =>
    intro k hk hf
    have h := under_perm (fun _ x => x) (mutItems ops) (fun _ _ _ => rfl) ops href k
    rw [List.map_id' ] at h
    refine List.Perm.trans ?_ h.symm
    rw [mutatorsIn, ownMutators_eq]
    refine List.Perm.append_left _ ?_
    have : ∀ l : List Nat, (∀ c ∈ l, c ∈ kids ops k) →
        (l.flatMap (mutatorsIn ops fuel)).Perm (l.flatMap (under (fun _ x => x) (mutItems ops) ops)) := by
      intro l
      induction l with
      | nil => intro _; exact List.Perm.refl _
      | cons c l il =>
        intro hl
        rw [List.flatMap_cons, List.flatMap_cons]
        have := kids_gt (hl c (by simp))
        exact (ih c this.2 (by omega)).append (il (fun x hx => hl x (by simp [hx])))
    exact this _ (fun _ h => h)

theorem under_root_mutators (ops : List (Op m)) (href : ∀ op ∈ ops, op.on < (places ops).length) :
    under (fun _ x => x) (mutItems ops) ops 0 = ops.flatMap (mutItems ops) := by
  refine flatMap_congr ops (fun op hop => ?_)
  obtain ⟨rest, h1, h2⟩ := lineOf_root (href op hop)
  rw [seen, h2]
  simp

/-- The mutators that run are those registered. -/
theorem mutators_perm (ops : List (Op m)) (href : ∀ op ∈ ops, op.on < (places ops).length) :
    (mutatorsIn ops (places ops).length 0).Perm (ops.flatMap (mutItems ops)) := by
  rw [← under_root_mutators ops href]
  exact mutatorsIn_perm ops href _ 0 (places_pos ops) (by omega)

theorem foldl_alias_other (l : List (Bytes × Bytes)) (req : Request) (h : ∀ p ∈ l, p.1 ≠ req.Path) :
    (l.map (fun p => aliasMutator p.1 p.2)).foldl (fun req f => f req) req = req := by
  induction l with
  | nil => rfl
  | cons p l ih =>
    rw [List.map_cons, List.foldl_cons]
    have : aliasMutator p.1 p.2 req = req := by
      rw [aliasMutator, if_neg (fun e => h p (by simp) e.symm)]
    rw [this]
    exact ih (fun q hq => h q (by simp [hq]))

theorem foldl_alias (l : List (Bytes × Bytes)) (req : Request) (source target : Bytes) (h : (source, target) ∈ l)
    (hp : req.Path = source) (hu : ∀ p ∈ l, p.1 = source → p.2 = target) (hc : ∀ p ∈ l, p.1 ≠ target) :
    (l.map (fun p => aliasMutator p.1 p.2)).foldl (fun req f => f req) req =
      { req with Path := target, Env := { req.Env with AliasFrom := source } } := by
  induction l with
  | nil => simp at h
  | cons p l ih =>
    rw [List.map_cons, List.foldl_cons]
    by_cases he : p.1 = source
    · have : aliasMutator p.1 p.2 req = { req with Path := target, Env := { req.Env with AliasFrom := source } } := by
        rw [aliasMutator, if_pos (by rw [hp, he]), hu p (by simp) he, he]
      rw [this]
      exact foldl_alias_other l _ (fun q hq => hc q (by simp [hq]))
    · have : aliasMutator p.1 p.2 req = req := by
        rw [aliasMutator, if_neg (fun e => he (by rw [← e, hp]))]
      rw [this]
      refine ih ?_ (fun q hq => hu q (by simp [hq])) (fun q hq => hc q (by simp [hq]))
      rcases List.mem_cons.1 h with rfl | h
      · exact absurd rfl he
      · exact h

/-- If all mutators are aliases, so are those that run. -/
theorem mutators_aliases (ops : List (Op m)) (href : ∀ op ∈ ops, op.on < (places ops).length)
    (hno : ∀ r f, Op.mutator r f ∉ ops) : ∃ l : List (Bytes × Bytes),
      mutatorsIn ops (places ops).length 0 = l.map (fun p => aliasMutator p.1 p.2) ∧
      ∀ s t, (s, t) ∈ l ↔ ∃ r source, Op.alias r source t ∈ ops ∧ s = GoPath.join (prefixOf ops r) source := by
  have e : ops.flatMap (mutItems ops) = (ops.flatMap (fun op => match op with
      | .alias r source target => [(GoPath.join (prefixOf ops r) source, target)]
      | _ => [])).map (fun p => aliasMutator p.1 p.2) := by
    rw [List.map_flatMap]
    refine flatMap_congr ops (fun op hop => ?_)
    cases op with
    | mutator r f => exact absurd hop (hno r f)
    | _ => simp [mutItems]
  have hp := mutators_perm ops href
  rw [e] at hp
  have key : ∀ {A : List Mutator} {B : List (Bytes × Bytes)}, A.Perm (B.map (fun p => aliasMutator p.1 p.2)) →
      ∃ B' : List (Bytes × Bytes), A = B'.map (fun p => aliasMutator p.1 p.2) ∧ B'.Perm B := by
    intro A B h
    generalize hC : B.map (fun p => aliasMutator p.1 p.2) = C at h
    induction h generalizing B with
    | nil => exact ⟨[], rfl, by simp at hC; rw [hC]⟩
    | cons x _ ih =>
      cases B with
      | nil => simp at hC
      | cons b B =>
        simp only [List.map_cons, List.cons.injEq] at hC
        obtain ⟨B', h1, h2⟩ := ih hC.2
        exact ⟨b :: B', by rw [h1, ← hC.1]; rfl, h2.cons b⟩
    | swap x y l =>
      cases B with
      | nil => simp at hC
      | cons b B =>
        cases B with
        | nil => simp at hC
        | cons c B =>
          simp only [List.map_cons, List.cons.injEq] at hC
          obtain ⟨rfl, rfl, rfl⟩ := hC
          exact ⟨c :: b :: B, rfl, List.Perm.swap b c B⟩
    | trans _ _ ih1 ih2 =>
      obtain ⟨B1, h1, h2⟩ := ih2 hC
      obtain ⟨B2, h3, h4⟩ := ih1 h1.symm
      exact ⟨B2, h3, h4.trans h2⟩
  obtain ⟨l, h1, h2⟩ := key hp
  refine ⟨l, h1, ?_⟩
  intro s t
  rw [h2.mem_iff, List.mem_flatMap]
  constructor
  · rintro ⟨op, hop, hx⟩
    cases op with
    | «alias» r source target =>
      simp only [List.mem_singleton, Prod.mk.injEq] at hx
      obtain ⟨rfl, rfl⟩ := hx
      exact ⟨r, source, hop, rfl⟩
    | _ => simp at hx
  · rintro ⟨r, source, hop, rfl⟩
    exact ⟨_, hop, by simp⟩

/-! ### TRACE -/

variable [Monad m]

theorem onError_buff (F : Fold) (rt : Runtime m) (b : Bytes) (req : Request) (err : GoErr)
    (h : ¬ (req.Method = .TRACE ∧ err = .http Status.ErrMethodNotAllowed)) :
    Runtime.onError' F { rt with traceBuff := b } req err =
      ((rt.onError' F req err).1, { rt with traceBuff := b }) := by
  have hr : ∀ c, Runtime.retrieveErrorHandler { rt with traceBuff := b } c = rt.retrieveErrorHandler c := fun _ => rfl
  unfold Runtime.onError'
  rw [if_neg h, if_neg h]
  simp only [hr]
  cases (if err = GoErr.http Status.ErrNotFound then
        rt.catchers.find? (fun c => c.Prefix.isPrefixOf req.Path) else none) with
  | some c => rfl
  | none =>
    cases err with
    | http e => simp only; cases rt.retrieveErrorHandler e.Code <;> rfl
    | _ => rfl

omit [Monad m] in
theorem requestHeaders_eq (h : Storage) (b : Bytes) : requestHeaders h b =
    b ++ h.pairs.flatMap (fun p => p.Key ++ b!": " ++ p.Value ++ b!"\r\n") := by
  rw [requestHeaders]
  generalize h.pairs = l
  induction l generalizing b with
  | nil => simp
  | cons p l ih => rw [List.foldl_cons, ih]; simp

end Indigo.Router
