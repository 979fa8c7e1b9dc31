/-
HEAD requests are answered by the handlers for GET, if there are none for HEAD.
-/
import Verif.Proofs.RouterSame

namespace Indigo.Router
open Indigo.Spec.Router Indigo.Spec

variable {m : Type → Type} [Monad m] {F : Fold} {text : GoErr → Bytes} {env : Env m} {ops : List (Op m)} {rt : Runtime m}

/-- A request with GET, and the same one with HEAD, are passed to the same handler. -/
def Both (F : Fold) (text : GoErr → Bytes) (ops : List (Op m)) (rt : Runtime m) (R : Request) (run : Request → Option (m (Fields × Request) × Runtime m)) : Prop :=
  ∃ h r, Known F text ops h ∧ (r.Method = .GET ∧ (NoBreak R.Env.AllowedMethods → NoBreak r.Env.AllowedMethods)) ∧ run R = some (h r, rt) ∧ run { R with Method := .HEAD } = some (h { r with Method := .HEAD }, rt)

theorem commas_clean (ms : List Method) : NoBreak (commas (ms.map Method.toBytes)) := by
  have key : ∀ c ∈ commas (ms.map Method.toBytes), c ≠ 13 ∧ c ≠ 10 := by
    induction ms with
    | nil => simp [commas]
    | cons x xs ih =>
      have hx : ∀ c ∈ x.toBytes, c ≠ 13 ∧ c ≠ 10 := by cases x <;> decide
      cases xs with
      | nil => simpa [commas] using hx
      | cons y ys =>
        intro c hc
        simp only [List.map_cons, commas, List.mem_append, List.mem_cons] at hc ih
        rcases hc with h | h | h
        · exact hx c h
        · subst h; decide
        · exact ih c h
  exact ⟨fun h => (key _ h).1 rfl, fun h => (key _ h).2 rfl⟩

theorem error_head (hb : Built F text ops rt) (always : ∀ code, ∃ h, handlerFor F text ops code = some h) (b : Bytes) (R : Request) (hR : R.Method = .GET) (e : Status.HTTPError) :
    Both F text ops { rt with traceBuff := b } R (fun R' => some (Runtime.onError' F { rt with traceBuff := b } R' (.http e))) := by
  have he : ∀ h, handlerFor F text ops e.Code = some h → Runtime.retrieveErrorHandler { rt with traceBuff := b } e.Code = some h := by
    intro h hh
    rw [← hh, Runtime.retrieveErrorHandler, handlerFor, ← hb.errs, ← hb.errs]
    simp only
    cases rt.errHandlers.get? e.Code <;> rfl
  cases hc : (if (GoErr.http e = .http Status.ErrNotFound) then rt.catchers.find? (fun c => c.Prefix.isPrefixOf R.Path) else none) with
  | some c =>
    refine ⟨c.Handler, R, ?_, ⟨hR, id⟩, ?_, ?_⟩
    · split at hc
      · have h1 : c ∈ rt.catchers := List.mem_of_find?_eq_some hc
        refine .inr (.inl ⟨c.Prefix, ?_⟩)
        rw [← hb.catchers.mem_iff]
        exact List.mem_map_of_mem (f := fun c : Catcher m => (c.Prefix, c.Handler)) h1
      · cases hc
    · dsimp only; unfold Runtime.onError'
      rw [if_neg (by rw [hR]; simp)]
      simp only [hc]
    · dsimp only; unfold Runtime.onError'
      rw [if_neg (by simp)]
      simp only [hc]
  | none =>
    obtain ⟨h, hh⟩ := always e.Code
    refine ⟨h, { R with Env := { R.Env with Error := some (.http e) } }, handlerFor_known hh, ⟨hR, id⟩, ?_, ?_⟩
    · dsimp only; unfold Runtime.onError'
      rw [if_neg (by rw [hR]; simp)]
      simp only [hc, he h hh]
    · dsimp only; unfold Runtime.onError'
      rw [if_neg (by simp)]
      simp only [hc, he h hh]

theorem dispatch_head (hb : Built F text ops rt) (always : ∀ code, ∃ h, handlerFor F text ops code = some h) (b : Bytes) (R : Request) (hR : R.Method = .GET)
    (e : Endpoint m) (he : Knows F text ops e) (hn : e.methodsMap .HEAD = none) (ha : NoBreak e.allow) :
    Both F text ops { rt with traceBuff := b } R (fun R' => some (Runtime.dispatch F { rt with traceBuff := b } R' e)) := by
  cases hg : e.methodsMap .GET with
  | some h =>
    refine ⟨h, { R with Env := { R.Env with AllowedMethods := e.allow } }, he _ _ hg, ⟨hR, fun _ => ha⟩, ?_, ?_⟩
    · simp only [Runtime.dispatch, Runtime.getHandler, hR, hg]
    · simp only [Runtime.dispatch, Runtime.getHandler, hn, hg, if_true]
  | none =>
    obtain ⟨h, r, k1, k2, k3, k4⟩ := error_head hb always b { R with Env := { R.Env with AllowedMethods := e.allow } } hR Status.ErrMethodNotAllowed
    refine ⟨h, r, k1, ⟨k2.1, fun _ => k2.2 ha⟩, ?_, ?_⟩
    · simp only [Runtime.dispatch, Runtime.getHandler, hR, hg]
      simpa [hR] using k3
    · simp only [Runtime.dispatch, Runtime.getHandler, hn, hg, if_true]
      simpa using k4

/-- A router without handlers for HEAD passes a request with HEAD to the handler to which it passes the same one with GET. -/
theorem request_head (hm : make F text env ops = some rt) (always : ∀ code, ∃ h, handlerFor F text ops code = some h) (noHead : ∀ d ∈ declared ops, d.1.2 ≠ .HEAD)
    (blind : ∀ r : Request, r.Method = .GET → (mutated ops r).Method = .GET ∧ mutated ops { r with Method := .HEAD } = { mutated ops r with Method := .HEAD })
    (b : Bytes) (req : Request) (get : req.Method = .GET) (hne : (arriving ops req).Path ≠ [])
    (hcl : NoBreak req.Env.AllowedMethods → NoBreak (mutated ops req).Env.AllowedMethods) :
    Both F text ops { rt with traceBuff := b } req (Runtime.onRequest F { rt with traceBuff := b }) := by
  have hb := built F text env ops rt hm
  have e1 : ∀ req b, Runtime.onRequest F { rt with traceBuff := b } req = Runtime.onRequest' F { rt with traceBuff := b } (arriving ops req) := by
    intro req b
    have harr : ({ Runtime.runMutators { rt with traceBuff := b } req with
        Path := UriNormalize.normalize (Runtime.runMutators { rt with traceBuff := b } req).Path } : Request) = arriving ops req := by
      rw [arriving, mutated, Runtime.runMutators, hb.mutators]
    rw [Runtime.onRequest]; simp only [harr]
  have e2 : arriving ops { req with Method := .HEAD } = { arriving ops req with Method := .HEAD } := by
    simp only [arriving, (blind req get).2]
  have e3 : (arriving ops req).Method = .GET := (blind req get).1
  suffices Both F text ops { rt with traceBuff := b } (arriving ops req) (Runtime.onRequest' F { rt with traceBuff := b }) by
    obtain ⟨h, r, k1, k2, k3, k4⟩ := this
    exact ⟨h, r, k1, ⟨k2.1, fun h => k2.2 (hcl h)⟩, by rw [e1]; exact k3, by rw [e1, e2]; exact k4⟩
  generalize arriving ops req = R at hne e3
  by_cases hd : ∃ d ∈ declared ops, isDyn d.1.1 = true
  · obtain ⟨tree, L, ht, hreg, hok⟩ := hb.dynamic hd
    obtain ⟨mu, ca, tb, ta, eh⟩ := rt
    dsimp only at ht
    subst ht
    have hgood : Radix.Node.Good (fun e => Knows F text ops e ∧ e.methodsMap .HEAD = none ∧ NoBreak e.allow) tree := by
      refine Radix.Node.good_register _ L _ _ (Radix.Node.good_new _ _ ⟨?_, rfl, by simp [NoBreak]⟩) ?_ hreg
      · intro mt h hh; cases hh
      · rintro ⟨p, e⟩ he
        refine ⟨fun mt h hh => .inl ⟨_, (hok.methods p e he mt h).1 hh⟩, ?_, ?_⟩
        rotate_left
        · obtain ⟨ms, -, hne', -, ha⟩ := hok.allow p e he
          rw [ha, trim_commas ms hne']
          exact commas_clean ms
        cases hx : e.methodsMap .HEAD with
        | none => rfl
        | some h => exact absurd rfl (noHead _ ((hok.methods p e he .HEAD h).1 hx))
    obtain ⟨p, l, hmatch⟩ := Radix.Node.match_same tree hne (params := R.Params)
    obtain ⟨q, m1, m2⟩ := hmatch R.Params rfl
    cases p with
    | none =>
      obtain ⟨h, r, k1, k2, k3, k4⟩ := error_head hb always b { R with Params := q } e3 Status.ErrNotFound
      refine ⟨h, r, k1, k2, ?_, ?_⟩
      · unfold Runtime.onRequest'
        simp only [m1]
        exact k3
      · unfold Runtime.onRequest'
        simp only [m1]
        exact k4
    | some e =>
      have hkn := Radix.Node.good_match _ tree _ _ _ e hgood m1
      obtain ⟨h, r, k1, k2, k3, k4⟩ := dispatch_head hb always b { R with Params := q } e3 e hkn.1 hkn.2.1 hkn.2.2
      refine ⟨h, r, k1, k2, ?_, ?_⟩
      · unfold Runtime.onRequest'
        simp only [m1]
        exact k3
      · unfold Runtime.onRequest'
        simp only [m1]
        exact k4
  · have hs : ∀ d ∈ declared ops, isDyn d.1.1 = false := by
      intro d hdm
      cases hx : isDyn d.1.1 with
      | false => rfl
      | true => exact absurd ⟨d, hdm, hx⟩ hd
    obtain ⟨T, hR, hok⟩ := hb.static hs
    obtain ⟨mu, ca, tb, ta, eh⟩ := rt
    dsimp only at hR
    subst hR
    have := hok R.Path
    cases hg : T.get? R.Path with
    | none =>
      obtain ⟨h, r, k1, k2, k3, k4⟩ := error_head hb always b R e3 Status.ErrNotFound
      refine ⟨h, r, k1, k2, ?_, ?_⟩
      · unfold Runtime.onRequest'
        simp only [hg]
        exact k3
      · unfold Runtime.onRequest'
        simp only [hg]
        exact k4
    | some e =>
      rw [hg] at this
      simp only at this
      have hkn : Knows F text ops e := fun mt h hh => .inl ⟨_, (this.2.1 mt h).1 hh⟩
      have hn : e.methodsMap .HEAD = none := by
        cases hx : e.methodsMap .HEAD with
        | none => rfl
        | some h => exact absurd rfl (noHead _ ((this.2.1 .HEAD h).1 hx))
      obtain ⟨h, r, k1, k2, k3, k4⟩ := dispatch_head hb always b R e3 e hkn hn (by rw [this.2.2, allow_eq]; exact commas_clean _)
      refine ⟨h, r, k1, k2, ?_, ?_⟩
      · unfold Runtime.onRequest'
        simp only [hg]
        exact k3
      · unfold Runtime.onRequest'
        simp only [hg]
        exact k4

end Indigo.Router
