/-
Whatever a built router does is done by one of the declared handlers.
-/
import Verif.Proofs.Router6
import Verif.Proofs.Radix
import Verif.Model.Virtual
import Verif.Spec.Virtual

namespace Indigo.Radix.Node
variable {π : Type}

/-- All payloads in a tree satisfy `Q`, and its maps are maps. -/
inductive Good (Q : π → Prop) : Node π → Prop
  | mk {n : Node π} : (∀ p, n.payload = some p → Q p) → n.statics.Distinct →
      (∀ k c, n.statics.lookup k = some c → Good Q c) → (∀ c, n.next = some c → Good Q c) → Good Q n

theorem good_newNode (Q : π → Prop) : Good Q (newNode none false []) :=
  .mk (by simp [newNode, payload]) (by have := (wf_newNode (π := π) none).self.1; exact this)
    (by simp [newNode, statics, ArrMap.lookup, ArrMap.scan]) (by simp [newNode, next])

theorem good_new (Q : π → Prop) (zero : π) (h : Q zero) : Good Q (new zero) :=
  .mk (by simp [new, newNode, payload]; exact h) (by have := (wf_newNode (π := π) none).self.1; exact this)
    (by simp [new, newNode, statics, ArrMap.lookup, ArrMap.scan]) (by simp [new, newNode, next])

theorem good_insert (Q : π → Prop) (t : Template) : ∀ (n n' : Node π) (p : π), Good Q n → Q p →
    insert n t p = .ok n' → Good Q n' := by
  induction t with
  | nil =>
    intro n n' p hg hq hi
    obtain ⟨st, nx, pl, w, i⟩ := n
    simp only [insert, Except.ok.injEq] at hi
    subst hi
    obtain ⟨-, h2, h3, h4⟩ := hg
    exact .mk (by simp only [payload, Option.some.injEq]; rintro _ rfl; exact hq) h2 h3 h4
  | cons s ss ih =>
    intro n n' p hg hq hi
    obtain ⟨st, nx, pl, w, i⟩ := n
    obtain ⟨h1, h2, h3, h4⟩ := hg
    simp only [insert] at hi
    split at hi
    · split at hi
      · cases hi
      · have hc : Good Q (nx.getD (newNode none false [])) := by
          cases nx with
          | none => exact good_newNode Q
          | some c => exact h4 c rfl
        cases hr : insert (nx.getD (newNode none false [])) ss p with
        | error e => rw [hr] at hi; cases hi
        | ok c =>
          rw [hr] at hi
          simp only [Except.ok.injEq] at hi
          subst hi
          refine .mk h1 h2 h3 ?_
          intro x hx
          simp only [next, Option.some.injEq] at hx
          subst hx
          exact ih _ _ p hc hq hr
    · cases hl : st.lookup s.Payload with
      | some c =>
        rw [hl] at hi
        simp only at hi
        cases hr : insert c ss p with
        | error e => rw [hr] at hi; cases hi
        | ok c' =>
          rw [hr] at hi
          simp only [Except.ok.injEq] at hi
          subst hi
          refine .mk h1 ?_ ?_ h4
          · exact ArrMap.distinct_update st _ _ h2
          · intro k x hx
            simp only [statics, ArrMap.lookup_update] at hx
            split at hx
            · simp only [Option.some.injEq] at hx
              subst hx
              exact ih _ _ p (h3 _ c hl) hq hr
            · exact h3 k x hx
      | none =>
        rw [hl] at hi
        simp only at hi
        cases hr : insert (newNode none false []) ss p with
        | error e => rw [hr] at hi; cases hi
        | ok c' =>
          rw [hr] at hi
          simp only [Except.ok.injEq] at hi
          subst hi
          refine .mk h1 ?_ ?_ h4
          · exact ArrMap.distinct_add st _ _ h2 hl
          · intro k x hx
            simp only [statics] at hx
            rw [ArrMap.lookup_add st _ _ _ h2 hl] at hx
            split at hx
            · simp only [Option.some.injEq] at hx
              subst hx
              exact ih _ _ p (good_newNode Q) hq hr
            · exact h3 k x hx

theorem good_register (Q : π → Prop) (L : List (Bytes × π)) : ∀ (n n' : Node π), Good Q n → (∀ e ∈ L, Q e.2) →
    register n L = .ok n' → Good Q n' := by
  induction L with
  | nil => intro n n' hg _ h; simp only [register, Except.ok.injEq] at h; subst h; exact hg
  | cons e L ih =>
    intro n n' hg hq h
    obtain ⟨tmpl, p⟩ := e
    simp only [register] at h
    cases hp : parse tmpl with
    | error e => rw [hp] at h; cases h
    | ok t =>
      rw [hp] at h
      simp only at h
      cases hi : insert n t p with
      | error e => rw [hi] at h; cases h
      | ok c =>
        rw [hi] at h
        exact ih c n' (good_insert Q t n c p hg (hq (tmpl, p) (by simp)) hi) (fun e he => hq e (by simp [he])) h

theorem good_matchLoop (Q : π → Prop) (fuel : Nat) : ∀ (n : Node π) (path : Bytes) (params : Storage) (p : π),
    Good Q n → (matchLoop fuel n path params).1 = some p → Q p := by
  induction fuel with
  | zero => intro n path params p hg h; obtain ⟨h1, -, -, -⟩ := hg; exact h1 p h
  | succ fuel ih =>
    intro n path params p hg h
    have hg' := hg
    obtain ⟨h1, h2, h3, h4⟩ := hg
    unfold matchLoop at h
    split at h
    · exact h1 p h
    · have key : ∀ seg rest, (match processSegment params seg n with
          | (none, params) => (none, params)
          | (some n, params) => matchLoop fuel n rest params).1 = some p → Q p := by
        intro seg rest h
        rcases hps : processSegment params seg n with ⟨_ | c, params'⟩
        · rw [hps] at h; simp at h
        · rw [hps] at h
          refine ih c rest params' p ?_ h
          unfold processSegment at hps
          cases hl : n.statics.lookup seg with
          | some x =>
            rw [hl] at hps
            simp only [Prod.mk.injEq, Option.some.injEq] at hps
            rw [← hps.1]
            exact h3 seg x hl
          | none =>
            rw [hl] at hps
            simp only at hps
            split at hps
            · cases hps
            · simp only [Prod.mk.injEq] at hps
              exact h4 c hps.1
      exact key _ _ h

theorem good_match (Q : π → Prop) (n : Node π) (path : Bytes) (params params' : Storage) (p : π) (hg : Good Q n)
    (h : n.match path params = .done (some p) params') : Q p := by
  unfold «match» at h
  split at h
  · cases h
  · split at h
    · cases h
    · simp only [MatchResult.done.injEq] at h
      exact good_matchLoop Q _ n _ _ p hg h.1

end Indigo.Radix.Node

namespace Indigo.Router
open Indigo.Spec.Router

variable {m : Type → Type} [Monad m] {F : Fold} {text : GoErr → Bytes} {env : Env m} {ops : List (Op m)} {rt : Runtime m}

/-- Something the calls have registered, or one of the error handlers every router has. -/
def Known (F : Fold) (text : GoErr → Bytes) (ops : List (Op m)) (h : Handler m) : Prop :=
  (∃ k, (k, h) ∈ declared ops) ∨ (∃ p, (p, h) ∈ catchers ops) ∨ (∃ c, (c, h) ∈ errorHandlers (defaults F text) ops)

/-- `r'` is the request `r` up to what the router itself fills in: path parameters, the allowed methods and the
error. -/
def Passed (r r' : Request) : Prop :=
  r' = { r with Params := r'.Params, Env := { r.Env with AllowedMethods := r'.Env.AllowedMethods, Error := r'.Env.Error } }

theorem Passed.refl (r : Request) : Passed r r := rfl

theorem lastFor_mem {α : Type} {l : List (Status.Code × α)} {c : Status.Code} {x : α} (h : lastFor l c = some x) :
    (c, x) ∈ l := by
  unfold lastFor at h
  cases hf : l.reverse.find? (fun e => e.1 = c) with
  | none => rw [hf] at h; simp at h
  | some e =>
    rw [hf] at h
    simp at h
    have h1 := List.mem_of_find?_eq_some hf
    have h2 := List.find?_some hf
    simp at h1 h2
    subst h h2
    exact h1

theorem handlerFor_known {code : Status.Code} {h : Handler m} (hh : handlerFor F text ops code = some h) :
    Known F text ops h := by
  unfold handlerFor at hh
  cases h1 : lastFor (errorHandlers (defaults F text) ops) code with
  | some x => rw [h1] at hh; simp at hh; subst hh; exact .inr (.inr ⟨_, lastFor_mem h1⟩)
  | none => rw [h1] at hh; simp at hh; exact .inr (.inr ⟨_, lastFor_mem hh⟩)

/-- The outcome of an error in a router in use. -/
theorem error_known (hb : Built F text ops rt) (always : ∀ code, ∃ h, handlerFor F text ops code = some h)
    (b : Bytes) (req : Request) (err : GoErr) :
    (∃ h req', Known F text ops h ∧ Passed req req' ∧ Runtime.onError' F { rt with traceBuff := b } req err = (h req', { rt with traceBuff := b })) ∨
    (req.Method = .TRACE ∧ err = .http Status.ErrMethodNotAllowed ∧ ∃ f b',
      Runtime.onError' F { rt with traceBuff := b } req err = (pure (f, req), { rt with traceBuff := b' })) ∨
    ((∀ e, err ≠ .http e) ∧ Runtime.onError' F { rt with traceBuff := b } req err =
      (pure (Fields.new.code Status.InternalServerError, req), { rt with traceBuff := b })) := by
  unfold Runtime.onError'
  split
  · rename_i h
    exact .inr (.inl ⟨h.1, h.2, _, _, rfl⟩)
  · simp only
    split
    · rename_i c hc
      refine .inl ⟨c.Handler, req, ?_, rfl, rfl⟩
      split at hc
      · have h1 : c ∈ rt.catchers := List.mem_of_find?_eq_some hc
        refine .inr (.inl ⟨c.Prefix, ?_⟩)
        rw [← hb.catchers.mem_iff]
        exact List.mem_map_of_mem (f := fun c : Catcher m => (c.Prefix, c.Handler)) h1
      · cases hc
    · cases err with
      | http e =>
        simp only
        obtain ⟨h, hh⟩ := always e.Code
        have he : Runtime.retrieveErrorHandler { rt with traceBuff := b } e.Code = some h := by
          rw [← hh, Runtime.retrieveErrorHandler, handlerFor, ← hb.errs, ← hb.errs]
          simp only
          cases rt.errHandlers.get? e.Code <;> rfl
        rw [he]
        exact .inl ⟨h, { req with Env := { req.Env with Error := some (.http e) } }, handlerFor_known hh, rfl, rfl⟩
      | _ => exact .inr (.inr ⟨fun e h => (by cases h), rfl⟩)

/-- The endpoint found for a path has known handlers only. -/
def Knows (F : Fold) (text : GoErr → Bytes) (ops : List (Op m)) (e : Endpoint m) : Prop :=
  ∀ mt h, e.methodsMap mt = some h → Known F text ops h

theorem dispatch_known (hb : Built F text ops rt) (always : ∀ code, ∃ h, handlerFor F text ops code = some h)
    (b : Bytes) (req : Request) (e : Endpoint m) (he : Knows F text ops e) :
    (∃ h req', Known F text ops h ∧ Passed req req' ∧ Runtime.dispatch F { rt with traceBuff := b } req e = (h req', { rt with traceBuff := b })) ∨
    (req.Method = .TRACE ∧ ∃ f req' b', Passed req req' ∧
      Runtime.dispatch F { rt with traceBuff := b } req e = (pure (f, req'), { rt with traceBuff := b' })) := by
  unfold Runtime.dispatch
  simp only
  cases hg : Runtime.getHandler req.Method e.methodsMap with
  | some h =>
    refine .inl ⟨h, { req with Env := { req.Env with AllowedMethods := e.allow } }, ?_, rfl, rfl⟩
    unfold Runtime.getHandler at hg
    cases hx : e.methodsMap req.Method with
    | some x => rw [hx] at hg; simp at hg; subst hg; exact he _ _ hx
    | none =>
      rw [hx] at hg
      simp only at hg
      split at hg
      · exact he _ _ hg
      · cases hg
  | none =>
    simp only
    rcases error_known hb always b { req with Env := { req.Env with AllowedMethods := e.allow } }
      (.http Status.ErrMethodNotAllowed) with ⟨h, r, h1, h2, h3⟩ | ⟨h1, -, f, b', h3⟩ | ⟨h, -⟩
    · exact .inl ⟨h, r, h1, by unfold Passed at h2 ⊢; rw [h2], h3⟩
    · exact .inr ⟨h1, f, { req with Env := { req.Env with AllowedMethods := e.allow } }, b', rfl, h3⟩
    · exact absurd rfl (h _)

theorem request_known (hm : make F text env ops = some rt) (always : ∀ code, ∃ h, handlerFor F text ops code = some h)
    (b : Bytes) (req : Request) :
    (∃ h req', Known F text ops h ∧ Passed (arriving ops req) req' ∧ Runtime.onRequest F { rt with traceBuff := b } req = some (h req', { rt with traceBuff := b })) ∨
    ((arriving ops req).Method = .TRACE ∧ ∃ f req' b', Passed (arriving ops req) req' ∧
      Runtime.onRequest F { rt with traceBuff := b } req = some (pure (f, req'), { rt with traceBuff := b' })) ∨
    ((arriving ops req).Path = [] ∧ (∃ d ∈ declared ops, isDyn d.1.1 = true) ∧
      Runtime.onRequest F { rt with traceBuff := b } req = none) := by
  have hb := built F text env ops rt hm
  have harr : ({ Runtime.runMutators { rt with traceBuff := b } req with
      Path := UriNormalize.normalize (Runtime.runMutators { rt with traceBuff := b } req).Path } : Request) =
      arriving ops req := by
    rw [arriving, mutated, Runtime.runMutators, hb.mutators]
  have e1 : Runtime.onRequest F { rt with traceBuff := b } req = Runtime.onRequest' F { rt with traceBuff := b } (arriving ops req) := by
    rw [Runtime.onRequest]; simp only [harr]
  rw [e1]
  unfold Runtime.onRequest'
  simp only
  have notFound : ∀ req' : Request,
      (∃ h r, Known F text ops h ∧ Passed req' r ∧ some (Runtime.onError' F { rt with traceBuff := b } req' (.http Status.ErrNotFound)) =
        some (h r, { rt with traceBuff := b })) := by
    intro req'
    rcases error_known hb always b req' (.http Status.ErrNotFound) with ⟨h, r, h1, hp, h2⟩ | ⟨-, h2, -⟩ | ⟨h, -⟩
    · exact ⟨h, r, h1, hp, by rw [h2]⟩
    · exact absurd h2 (by decide)
    · exact absurd rfl (h _)
  by_cases hd : ∃ d ∈ declared ops, isDyn d.1.1 = true
  · obtain ⟨tree, L, ht, hreg, hok⟩ := hb.dynamic hd
    obtain ⟨mu, ca, tb, ta, eh⟩ := rt
    dsimp only at ht
    subst ht
    dsimp only
    have hgood : Radix.Node.Good (Knows F text ops) tree := by
      refine Radix.Node.good_register _ L _ _ (Radix.Node.good_new _ _ ?_) ?_ hreg
      · intro mt h hh; cases hh
      · rintro ⟨p, e⟩ he mt h hh
        exact .inl ⟨_, (hok.methods p e he mt h).1 hh⟩
    cases hmt : tree.match (arriving ops req).Path (arriving ops req).Params with
    | panic =>
      refine .inr (.inr ⟨?_, hd, rfl⟩)
      unfold Radix.Node.match at hmt
      split at hmt
      · assumption
      · split at hmt <;> cases hmt
    | done p params =>
      cases p with
      | none =>
        obtain ⟨h, r, h1, h2, h3⟩ := notFound { arriving ops req with Params := params }
        exact .inl ⟨h, r, h1, by unfold Passed at h2 ⊢; rw [h2], h3⟩
      | some e =>
        have := Radix.Node.good_match _ tree _ _ _ e hgood hmt
        rcases dispatch_known hb always b { arriving ops req with Params := params } e this with ⟨h, r, h1, hp, h2⟩ | ⟨h1, f, r, b', hp, h2⟩
        · exact .inl ⟨h, r, h1, by unfold Passed at hp ⊢; rw [hp], congrArg some h2⟩
        · exact .inr (.inl ⟨h1, f, r, b', by unfold Passed at hp ⊢; rw [hp], congrArg some h2⟩)
  · have hs : ∀ d ∈ declared ops, isDyn d.1.1 = false := by
      intro d hdm
      cases hx : isDyn d.1.1 with
      | false => rfl
      | true => exact absurd ⟨d, hdm, hx⟩ hd
    obtain ⟨R, hR, hok⟩ := hb.static hs
    obtain ⟨mu, ca, tb, ta, eh⟩ := rt
    dsimp only at hR
    subst hR
    dsimp only
    have := hok (arriving ops req).Path
    cases hg : R.get? (arriving ops req).Path with
    | none => exact .inl (notFound _)
    | some e =>
      rw [hg] at this
      simp only at this
      have hk : Knows F text ops e := fun mt h hh => .inl ⟨_, (this.2.1 mt h).1 hh⟩
      rcases dispatch_known hb always b (arriving ops req) e hk with ⟨h, r, h1, hp, h2⟩ | ⟨h1, f, r, b', hp, h2⟩
      · exact .inl ⟨h, r, h1, hp, congrArg some h2⟩
      · exact .inr (.inl ⟨h1, f, r, b', hp, congrArg some h2⟩)

end Indigo.Router
