/-
The built-in router does not look at headers, but to echo them.
-/
import Verif.Proofs.RouterSame
import Verif.Spec.AnyCase

namespace Indigo.Router
open Indigo.Spec.Router Indigo.Spec

variable {m : Type → Type} [Monad m] {F : Fold} {text : GoErr → Bytes} {env : Env m} {ops : List (Op m)} {rt : Runtime m}

/-- A request, whatever its headers are, is passed to the same handler, with its headers. -/
def AnyHeaders (F : Fold) (text : GoErr → Bytes) (ops : List (Op m)) (rt : Runtime m) (R : Request) (run : Request → Option (m (Fields × Request) × Runtime m)) : Prop :=
  ∃ (h : Handler m) (r : Request), Known F text ops h ∧ ∀ hs : Storage, run { R with Headers := hs } = some (h { r with Headers := hs }, rt)

theorem error_headers (hb : Built F text ops rt) (always : ∀ code, ∃ h, handlerFor F text ops code = some h) (b : Bytes) (R : Request) (hR : R.Method ≠ .TRACE) (e : Status.HTTPError) :
    AnyHeaders F text ops { rt with traceBuff := b } R (fun R' => some (Runtime.onError' F { rt with traceBuff := b } R' (.http e))) := by
  have he : ∀ h, handlerFor F text ops e.Code = some h → Runtime.retrieveErrorHandler { rt with traceBuff := b } e.Code = some h := by
    intro h hh
    rw [← hh, Runtime.retrieveErrorHandler, handlerFor, ← hb.errs, ← hb.errs]
    simp only
    cases rt.errHandlers.get? e.Code <;> rfl
  cases hc : (if (GoErr.http e = .http Status.ErrNotFound) then rt.catchers.find? (fun c => c.Prefix.isPrefixOf R.Path) else none) with
  | some c =>
    refine ⟨c.Handler, R, ?_, fun hs => ?_⟩
    · split at hc
      · have h1 : c ∈ rt.catchers := List.mem_of_find?_eq_some hc
        refine .inr (.inl ⟨c.Prefix, ?_⟩)
        rw [← hb.catchers.mem_iff]
        exact List.mem_map_of_mem (f := fun c : Catcher m => (c.Prefix, c.Handler)) h1
      · cases hc
    · dsimp only; unfold Runtime.onError'
      rw [if_neg (by simp [hR])]
      simp only [hc]
  | none =>
    obtain ⟨h, hh⟩ := always e.Code
    refine ⟨h, { R with Env := { R.Env with Error := some (.http e) } }, handlerFor_known hh, fun hs => ?_⟩
    dsimp only; unfold Runtime.onError'
    rw [if_neg (by simp [hR])]
    simp only [hc, he h hh]

theorem dispatch_headers (hb : Built F text ops rt) (always : ∀ code, ∃ h, handlerFor F text ops code = some h) (b : Bytes) (R : Request) (hR : R.Method ≠ .TRACE)
    (e : Endpoint m) (he : Knows F text ops e) :
    AnyHeaders F text ops { rt with traceBuff := b } R (fun R' => some (Runtime.dispatch F { rt with traceBuff := b } R' e)) := by
  cases hg : Runtime.getHandler R.Method e.methodsMap with
  | some h =>
    refine ⟨h, { R with Env := { R.Env with AllowedMethods := e.allow } }, ?_, fun hs => ?_⟩
    · unfold Runtime.getHandler at hg
      cases hx : e.methodsMap R.Method with
      | some x => rw [hx] at hg; simp at hg; subst hg; exact he _ _ hx
      | none =>
        rw [hx] at hg
        simp only at hg
        split at hg
        · exact he _ _ hg
        · cases hg
    · simp only [Runtime.dispatch, hg]
  | none =>
    obtain ⟨h, r, k1, k2⟩ := error_headers hb always b { R with Env := { R.Env with AllowedMethods := e.allow } } hR Status.ErrMethodNotAllowed
    refine ⟨h, r, k1, fun hs => ?_⟩
    simp only [Runtime.dispatch, hg]
    exact k2 hs

/-- A router passes a request which is not TRACE to the same handler, whatever its headers are. -/
theorem request_headers (hm : make F text env ops = some rt) (always : ∀ code, ∃ h, handlerFor F text ops code = some h)
    (b : Bytes) (R : Request) (hR : R.Method ≠ .TRACE) (hne : R.Path ≠ []) :
    AnyHeaders F text ops { rt with traceBuff := b } R (Runtime.onRequest' F { rt with traceBuff := b }) := by
  have hb := built F text env ops rt hm
  by_cases hd : ∃ d ∈ declared ops, isDyn d.1.1 = true
  · obtain ⟨tree, L, ht, hreg, hok⟩ := hb.dynamic hd
    obtain ⟨mu, ca, tb, ta, eh⟩ := rt
    dsimp only at ht
    subst ht
    have hgood : Radix.Node.Good (Knows F text ops) tree := by
      refine Radix.Node.good_register _ L _ _ (Radix.Node.good_new _ _ ?_) ?_ hreg
      · intro mt h hh; cases hh
      · rintro ⟨p, e⟩ he mt h hh
        exact .inl ⟨_, (hok.methods p e he mt h).1 hh⟩
    obtain ⟨p, l, hmatch⟩ := Radix.Node.match_same tree hne (params := R.Params)
    obtain ⟨q, m1, m2⟩ := hmatch R.Params rfl
    cases p with
    | none =>
      obtain ⟨h, r, k1, k2⟩ := error_headers hb always b { R with Params := q } hR Status.ErrNotFound
      refine ⟨h, r, k1, fun hs => ?_⟩
      unfold Runtime.onRequest'
      simp only [m1]
      exact k2 hs
    | some e =>
      obtain ⟨h, r, k1, k2⟩ := dispatch_headers hb always b { R with Params := q } hR e (Radix.Node.good_match _ tree _ _ _ e hgood m1)
      refine ⟨h, r, k1, fun hs => ?_⟩
      unfold Runtime.onRequest'
      simp only [m1]
      exact k2 hs
  · have hs : ∀ d ∈ declared ops, isDyn d.1.1 = false := by
      intro d hdm
      cases hx : isDyn d.1.1 with
      | false => rfl
      | true => exact absurd ⟨d, hdm, hx⟩ hd
    obtain ⟨T, hT, hok⟩ := hb.static hs
    obtain ⟨mu, ca, tb, ta, eh⟩ := rt
    dsimp only at hT
    subst hT
    have := hok R.Path
    cases hg : T.get? R.Path with
    | none =>
      obtain ⟨h, r, k1, k2⟩ := error_headers hb always b R hR Status.ErrNotFound
      refine ⟨h, r, k1, fun hs => ?_⟩
      unfold Runtime.onRequest'
      simp only [hg]
      exact k2 hs
    | some e =>
      rw [hg] at this
      simp only at this
      obtain ⟨h, r, k1, k2⟩ := dispatch_headers hb always b R hR e (fun mt h hh => .inl ⟨_, (this.2.1 mt h).1 hh⟩)
      refine ⟨h, r, k1, fun hs => ?_⟩
      unfold Runtime.onRequest'
      simp only [hg]
      exact k2 hs

theorem folded_iff {r r' : Request} : folded r = folded r' ↔ contents { r with Headers := r'.Headers } = contents r' ∧
    r.Headers.pairs.map (fun p => (lower p.Key, p.Value)) = r'.Headers.pairs.map (fun p => (lower p.Key, p.Value)) := by
  have e : ∀ r : Request, r.Headers.pairs.map (fun p => (lower p.Key, p.Value)) = (folded r).Headers.pairs.map (fun p => (p.Key, p.Value)) := by
    intro r; simp [folded, List.map_map, Function.comp_def]
  constructor
  · intro h
    refine ⟨?_, by rw [e, e, h]⟩
    have e' : ∀ r : Request, ∀ hs : Storage, contents { r with Headers := hs } = { folded r with Headers := { pairs := hs.pairs } } := fun _ _ => rfl
    rw [e', h]
    rfl
  · rintro ⟨h1, h2⟩
    have e' : ∀ r : Request, ∀ hs : Storage, folded r = { contents { r with Headers := hs } with Headers := { pairs := (r.Headers.pairs.map (fun p => (lower p.Key, p.Value))).map (fun p => ⟨p.1, p.2⟩) } } := by
      intro r hs; simp only [folded, contents, List.map_map, Function.comp_def]
    rw [e' r r'.Headers, e' r' r'.Headers, h1, h2]

/-- For requests which say the same but for the letter case of names of headers, and are not TRACE, a router calls the same handler, with requests which say the same but for that. -/
theorem request_case (hm : make F text env ops = some rt) (always : ∀ code, ∃ h, handlerFor F text ops code = some h)
    (respect : ∀ r r', folded r = folded r' → folded (mutated ops r) = folded (mutated ops r'))
    (b : Bytes) (req req' : Request) (alike : folded req = folded req') (hR : (arriving ops req).Method ≠ .TRACE) (hne : (arriving ops req).Path ≠ []) :
    ∃ h ra rb, Known F text ops h ∧ folded ra = folded rb ∧ Runtime.onRequest F { rt with traceBuff := b } req = some (h ra, { rt with traceBuff := b }) ∧
      ((∃ h' rc rd, Known F text ops h' ∧ contents rc = contents rd ∧ h rb = h' rc ∧ Runtime.onRequest F { rt with traceBuff := b } req' = some (h' rd, { rt with traceBuff := b })) ∨
        ∃ f x y, h rb = pure (f, x) ∧ Runtime.onRequest F { rt with traceBuff := b } req' = some (pure (f, y), { rt with traceBuff := b })) := by
  have hb := built F text env ops rt hm
  have e1 : ∀ req b, Runtime.onRequest F { rt with traceBuff := b } req = Runtime.onRequest' F { rt with traceBuff := b } (arriving ops req) := by
    intro req b
    have harr : ({ Runtime.runMutators { rt with traceBuff := b } req with
        Path := UriNormalize.normalize (Runtime.runMutators { rt with traceBuff := b } req).Path } : Request) = arriving ops req := by
      rw [arriving, mutated, Runtime.runMutators, hb.mutators]
    rw [Runtime.onRequest]; simp only [harr]
  have arr : folded (arriving ops req) = folded (arriving ops req') := by
    have h := respect _ _ alike
    have e : ∀ r : Request, folded { r with Path := UriNormalize.normalize r.Path } = { folded r with Path := UriNormalize.normalize (folded r).Path } := fun _ => rfl
    unfold arriving
    rw [e, e, h]
  rw [e1, e1]
  generalize arriving ops req = R at *
  generalize arriving ops req' = R' at *
  obtain ⟨h, r, hk, hall⟩ := request_headers hm always b R hR hne
  obtain ⟨c1, c2⟩ := folded_iff.1 arr
  obtain ⟨D, ⟨h', hk', hall'⟩ | ⟨fb, g, hall'⟩⟩ := request_same' hm always R' (by
    rw [← show R.Path = R'.Path from (congrArg Request.Path arr :)]; exact hne)
  all_goals
    obtain ⟨r0, d1, d2⟩ := hall' { R with Headers := R'.Headers } b c1
    obtain ⟨r1, d3, d4⟩ := hall' R' b rfl
    rw [hall R'.Headers] at d1
    simp only [Option.some.injEq, Prod.mk.injEq] at d1
    refine ⟨h, { r with Headers := R.Headers }, { r with Headers := R'.Headers }, hk, folded_iff.2 ⟨rfl, c2⟩, hall R.Headers, ?_⟩
  · exact .inl ⟨h', r0, r1, hk', d2.trans d4.symm, d1.1, d3⟩
  · exact .inr ⟨_, r0, r1, d1.1, by rw [d3, ← d1.2]⟩

end Indigo.Router
