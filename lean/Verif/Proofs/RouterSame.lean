/-
What a router does depends on what a request says, not on the memory its storages use.
-/
import Verif.Proofs.RouterAll
import Verif.Spec.Same

namespace Indigo.Radix.Node
variable {π : Type}

theorem processSegment_same {params params' : Storage} (h : params.pairs = params'.pairs) (segment : Bytes) (node : Node π) :
    (processSegment params segment node).1 = (processSegment params' segment node).1 ∧
    (processSegment params segment node).2.pairs = (processSegment params' segment node).2.pairs := by
  unfold processSegment
  split
  · exact ⟨rfl, h⟩
  · split
    · exact ⟨rfl, h⟩
    · refine ⟨rfl, ?_⟩
      dsimp only
      split
      · simp [Storage.add, h]
      · exact h

theorem matchLoop_same (fuel : Nat) : ∀ (node : Node π) (path : Bytes) {params params' : Storage}, params.pairs = params'.pairs →
    (matchLoop fuel node path params).1 = (matchLoop fuel node path params').1 ∧
    (matchLoop fuel node path params).2.pairs = (matchLoop fuel node path params').2.pairs := by
  induction fuel with
  | zero => intro node path params params' h; exact ⟨rfl, h⟩
  | succ fuel ih =>
    intro node path params params' h
    unfold matchLoop
    split
    · exact ⟨rfl, h⟩
    · have key : ∀ seg rest,
          (match processSegment params seg node with
          | (none, params) => (none, params)
          | (some n, params) => matchLoop fuel n rest params).1 =
          (match processSegment params' seg node with
          | (none, params) => (none, params)
          | (some n, params) => matchLoop fuel n rest params).1 ∧
          (match processSegment params seg node with
          | (none, params) => (none, params)
          | (some n, params) => matchLoop fuel n rest params).2.pairs =
          (match processSegment params' seg node with
          | (none, params) => (none, params)
          | (some n, params) => matchLoop fuel n rest params).2.pairs := by
        intro seg rest
        obtain ⟨h1, h2⟩ := processSegment_same h seg node
        rcases hp : processSegment params seg node with ⟨a, p⟩
        rcases hp' : processSegment params' seg node with ⟨a', p'⟩
        rw [hp, hp'] at h1 h2
        simp only at h1 h2
        subst h1
        cases a with
        | none => exact ⟨rfl, h2⟩
        | some n => exact ih n rest h2
      exact key _ _

theorem match_same (n : Node π) {path : Bytes} (hp : path ≠ []) {params : Storage} : ∃ (p : Option π) (l : List Pair), ∀ params' : Storage, params'.pairs = params.pairs →
    ∃ q : Storage, n.match path params' = .done p q ∧ q.pairs = l := by
  cases path with
  | nil => exact absurd rfl hp
  | cons c cs =>
    by_cases hc : c ≠ SLASH
    · refine ⟨none, params.pairs, fun params' h => ⟨params', ?_, h⟩⟩
      simp only [«match», if_pos hc]
    · refine ⟨(matchLoop cs.length n cs params).1, (matchLoop cs.length n cs params).2.pairs, fun params' h => ⟨(matchLoop cs.length n cs params').2, ?_, ?_⟩⟩
      · simp only [«match», if_neg hc, (matchLoop_same cs.length n cs h).1]
      · exact (matchLoop_same cs.length n cs h).2

end Indigo.Radix.Node

namespace Indigo.Router
open Indigo.Spec.Router Indigo.Spec

variable {m : Type → Type} [Monad m] {F : Fold} {text : GoErr → Bytes} {env : Env m} {ops : List (Op m)} {rt : Runtime m}

theorem contents_env {r r' : Request} (h : contents r = contents r') (f : Environment → Environment) :
    contents { r with Env := f r.Env } = contents { r' with Env := f r'.Env } := by
  have e : ∀ r : Request, contents { r with Env := f r.Env } = { contents r with Env := f (contents r).Env } := fun _ => rfl
  rw [e, e, h]

theorem contents_path {r r' : Request} (h : contents r = contents r') (f : Bytes → Bytes) :
    contents { r with Path := f r.Path } = contents { r' with Path := f r'.Path } := by
  have e : ∀ r : Request, contents { r with Path := f r.Path } = { contents r with Path := f (contents r).Path } := fun _ => rfl
  rw [e, e, h]

theorem contents_params {r r' : Request} (h : contents r = contents r') {p p' : Storage} (hp : p.pairs = p'.pairs) :
    contents { r with Params := p } = contents { r' with Params := p' } := by
  have e : ∀ (r : Request) (p : Storage), contents { r with Params := p } = { contents r with Params := { pairs := p.pairs } } := fun _ _ => rfl
  have e1 := e r p
  rw [h, hp] at e1
  exact e1.trans (e r' p').symm

/-- What is called, and what becomes of the buffer for echoes, for all requests which say the same. -/
def Alike (F : Fold) (text : GoErr → Bytes) (ops : List (Op m)) (rt : Runtime m) (C : Request) (run : Runtime m → Request → Option (m (Fields × Request) × Runtime m)) : Prop :=
  ∃ D, (∃ h, Known F text ops h ∧ ∀ R b, contents R = C → ∃ r, run { rt with traceBuff := b } R = some (h r, { rt with traceBuff := b }) ∧ contents r = D) ∨
    ∃ (f : Bytes → Fields) (g : Bytes → Bytes), ∀ R b, contents R = C → ∃ r, run { rt with traceBuff := b } R = some (pure (f b, r), { rt with traceBuff := g b }) ∧ contents r = D

theorem render_same {r r' : Request} (h : contents r = contents r') (b : Bytes) : renderHTTPRequest r b = renderHTTPRequest r' b := by
  have h1 : r.Method = r'.Method := (congrArg Request.Method h :)
  have h2 : r.Path = r'.Path := (congrArg Request.Path h :)
  have h3 : r.Query.raw = r'.Query.raw := (congrArg (fun r : Request => r.Query.raw) h :)
  have h4 : r.Proto = r'.Proto := (congrArg Request.Proto h :)
  have h5 : r.Headers.pairs = r'.Headers.pairs := (congrArg (fun r : Request => r.Headers.pairs) h :)
  unfold renderHTTPRequest requestURI requestHeaders
  rw [h1, h2, h3, h4, h5]

theorem Alike.of {C C' : Request} {run run' : Runtime m → Request → Option (m (Fields × Request) × Runtime m)} (h : Alike F text ops rt C run) (g : Request → Request)
    (hg : ∀ R, contents R = C' → contents (g R) = C) (hr : ∀ R b, contents R = C' → run' { rt with traceBuff := b } R = run { rt with traceBuff := b } (g R)) : Alike F text ops rt C' run' := by
  obtain ⟨D, ⟨h, hk, h1⟩ | ⟨f, k, h1⟩⟩ := h
  · refine ⟨D, .inl ⟨h, hk, fun R b hR => ?_⟩⟩
    rw [hr R b hR]
    exact h1 _ b (hg R hR)
  · refine ⟨D, .inr ⟨f, k, fun R b hR => ?_⟩⟩
    rw [hr R b hR]
    exact h1 _ b (hg R hR)

theorem error_same (hb : Built F text ops rt) (always : ∀ code, ∃ h, handlerFor F text ops code = some h) (R : Request) (e : Status.HTTPError) :
    Alike F text ops rt (contents R) (fun rt R' => some (Runtime.onError' F rt R' (.http e))) := by
  by_cases nt : R.Method = .TRACE ∧ GoErr.http e = .http Status.ErrMethodNotAllowed
  · refine ⟨contents R, .inr ⟨fun b => traceResponse F Fields.new (renderHTTPRequest R b), fun b => renderHTTPRequest R b, fun R' b h => ⟨R', ?_, h⟩⟩⟩
    have hm : R'.Method = R.Method := (congrArg Request.Method h :)
    show some (Runtime.onError' F _ R' _) = _
    unfold Runtime.onError'
    rw [if_pos (by rw [hm]; exact nt), render_same h]
  by_cases hc : ∃ c, (if (GoErr.http e = .http Status.ErrNotFound) then rt.catchers.find? (fun c => c.Prefix.isPrefixOf R.Path) else none) = some c
  · obtain ⟨c, hc⟩ := hc
    refine ⟨contents R, .inl ⟨c.Handler, ?_, ?_⟩⟩
    · split at hc
      · have h1 : c ∈ rt.catchers := List.mem_of_find?_eq_some hc
        refine .inr (.inl ⟨c.Prefix, ?_⟩)
        rw [← hb.catchers.mem_iff]
        exact List.mem_map_of_mem (f := fun c : Catcher m => (c.Prefix, c.Handler)) h1
      · cases hc
    · intro R' b h
      have hm : R'.Method = R.Method := (congrArg Request.Method h :)
      have hp : R'.Path = R.Path := (congrArg Request.Path h :)
      refine ⟨R', ?_, h⟩
      show some (Runtime.onError' F _ R' _) = _
      unfold Runtime.onError'
      rw [if_neg (by rw [hm]; exact nt)]
      simp only [hp, hc]
  · obtain ⟨h, hh⟩ := always e.Code
    refine ⟨contents { R with Env := { R.Env with Error := some (.http e) } }, .inl ⟨h, handlerFor_known hh, ?_⟩⟩
    intro R' b hR
    have hm : R'.Method = R.Method := (congrArg Request.Method hR :)
    have hp : R'.Path = R.Path := (congrArg Request.Path hR :)
    refine ⟨{ R' with Env := { R'.Env with Error := some (.http e) } }, ?_, contents_env hR (fun v => { v with Error := some (.http e) })⟩
    have he : Runtime.retrieveErrorHandler { rt with traceBuff := b } e.Code = some h := by
      rw [← hh, Runtime.retrieveErrorHandler, handlerFor, ← hb.errs, ← hb.errs]
      simp only
      cases rt.errHandlers.get? e.Code <;> rfl
    show some (Runtime.onError' F _ R' _) = _
    unfold Runtime.onError'
    rw [if_neg (by rw [hm]; exact nt)]
    simp only [hp]
    cases hx : (if (GoErr.http e = .http Status.ErrNotFound) then rt.catchers.find? (fun c => c.Prefix.isPrefixOf R.Path) else none) with
    | some c => exact absurd ⟨c, hx⟩ hc
    | none => simp only [he]

theorem dispatch_same (hb : Built F text ops rt) (always : ∀ code, ∃ h, handlerFor F text ops code = some h) (R : Request)
    (e : Endpoint m) (he : Knows F text ops e) :
    Alike F text ops rt (contents R) (fun rt R' => some (Runtime.dispatch F rt R' e)) := by
  cases hg : Runtime.getHandler R.Method e.methodsMap with
  | some h =>
    refine ⟨contents { R with Env := { R.Env with AllowedMethods := e.allow } }, .inl ⟨h, ?_, ?_⟩⟩
    · unfold Runtime.getHandler at hg
      cases hx : e.methodsMap R.Method with
      | some x => rw [hx] at hg; simp at hg; subst hg; exact he _ _ hx
      | none =>
        rw [hx] at hg
        simp only at hg
        split at hg
        · exact he _ _ hg
        · cases hg
    · intro R' b hR
      have hm : R'.Method = R.Method := (congrArg Request.Method hR :)
      refine ⟨{ R' with Env := { R'.Env with AllowedMethods := e.allow } }, ?_, contents_env hR (fun v => { v with AllowedMethods := e.allow })⟩
      show some (Runtime.dispatch F _ R' _) = _
      unfold Runtime.dispatch
      rw [← hm] at hg
      simp only [hg]
  | none =>
    refine (error_same hb always { R with Env := { R.Env with AllowedMethods := e.allow } } Status.ErrMethodNotAllowed).of (fun R' => { R' with Env := { R'.Env with AllowedMethods := e.allow } })
      (fun R' hR => contents_env hR (fun v => { v with AllowedMethods := e.allow })) ?_
    intro R' b hR
    have hm : R'.Method = R.Method := (congrArg Request.Method hR :)
    show some (Runtime.dispatch F _ R' _) = _
    unfold Runtime.dispatch
    rw [← hm] at hg
    simp only [hg]

/-- For requests which say the same and come from the mutators, a router calls the same handler, with requests which say the same, or echoes the same. -/
theorem request_same' (hm : make F text env ops = some rt) (always : ∀ code, ∃ h, handlerFor F text ops code = some h)
    (R : Request) (hne : R.Path ≠ []) : Alike F text ops rt (contents R) (Runtime.onRequest' F) := by
  have hb := built F text env ops rt hm
  by_cases hd : ∃ d ∈ declared ops, isDyn d.1.1 = true
  · obtain ⟨tree, L, ht, hreg, hok⟩ := hb.dynamic hd
    obtain ⟨mu, ca, tb, ta, eh⟩ := rt
    dsimp only at ht
    subst ht
    have hgood : Radix.Node.Good (Knows F text ops) tree := by
      refine Radix.Node.good_register _ L _ _ (Radix.Node.good_new _ _ ?_) ?_ hreg
      · intro mt h hh; cases hh
      · rintro ⟨p, e⟩ he mt h hh
        exact .inl ⟨_, (hok.methods p e he mt h).1 hh⟩
    obtain ⟨p, l, hmatch⟩ := Radix.Node.match_same tree hne (params := R.Params)
    have found : ∀ R', contents R' = contents R → ∃ q : Storage, tree.match R'.Path R'.Params = .done p q ∧ q.pairs = l := by
      intro R' hc
      have hp : R'.Path = R.Path := (congrArg Request.Path hc :)
      have hq : R'.Params.pairs = R.Params.pairs := (congrArg (fun r : Request => r.Params.pairs) hc :)
      rw [hp]
      exact hmatch R'.Params hq
    let G : Request → Request := fun R' => match tree.match R'.Path R'.Params with
      | .done _ q => { R' with Params := q }
      | _ => R'
    have hG : ∀ R', contents R' = contents R → contents (G R') = contents { R with Params := { pairs := l } } := by
      intro R' hc
      obtain ⟨q, m1, m2⟩ := found R' hc
      simp only [G, m1]
      exact contents_params hc m2
    cases p with
    | none =>
      refine (error_same hb always { R with Params := { pairs := l } } Status.ErrNotFound).of G hG ?_
      intro R' b hc
      obtain ⟨q, m1, m2⟩ := found R' hc
      unfold Runtime.onRequest'
      dsimp only
      simp only [G, m1]
    | some e =>
      have hkn : Knows F text ops e := by
        obtain ⟨q, m1, -⟩ := hmatch R.Params rfl
        exact Radix.Node.good_match _ tree _ _ _ e hgood m1
      refine (dispatch_same hb always { R with Params := { pairs := l } } e hkn).of G hG ?_
      intro R' b hc
      obtain ⟨q, m1, m2⟩ := found R' hc
      unfold Runtime.onRequest'
      dsimp only
      simp only [G, m1]
  · have hs : ∀ d ∈ declared ops, isDyn d.1.1 = false := by
      intro d hdm
      cases hx : isDyn d.1.1 with
      | false => rfl
      | true => exact absurd ⟨d, hdm, hx⟩ hd
    obtain ⟨T, hR, hok⟩ := hb.static hs
    obtain ⟨mu, ca, tb, ta, eh⟩ := rt
    dsimp only at hR
    subst hR
    have := hok R.Path
    cases hg : T.get? R.Path with
    | none =>
      refine (error_same hb always R Status.ErrNotFound).of id (fun _ h => h) ?_
      intro R' b hc
      have hp : R'.Path = R.Path := (congrArg Request.Path hc :)
      rw [← hp] at hg
      unfold Runtime.onRequest'
      dsimp only
      simp only [hg, id]
    | some e =>
      rw [hg] at this
      simp only at this
      have hkn : Knows F text ops e := fun mt h hh => .inl ⟨_, (this.2.1 mt h).1 hh⟩
      refine (dispatch_same hb always R e hkn).of id (fun _ h => h) ?_
      intro R' b hc
      have hp : R'.Path = R.Path := (congrArg Request.Path hc :)
      rw [← hp] at hg
      unfold Runtime.onRequest'
      dsimp only
      simp only [hg, id]

/-- For requests which say the same, a router calls the same handler, with requests which say the same, or echoes the same. -/
theorem request_same (hm : make F text env ops = some rt) (always : ∀ code, ∃ h, handlerFor F text ops code = some h) (respect : ∀ r r', contents r = contents r' → contents (mutated ops r) = contents (mutated ops r'))
    (req : Request) (hne : (arriving ops req).Path ≠ []) : Alike F text ops rt (contents req) (Runtime.onRequest F) := by
  have hb := built F text env ops rt hm
  have e1 : ∀ req b, Runtime.onRequest F { rt with traceBuff := b } req = Runtime.onRequest' F { rt with traceBuff := b } (arriving ops req) := by
    intro req b
    have harr : ({ Runtime.runMutators { rt with traceBuff := b } req with
        Path := UriNormalize.normalize (Runtime.runMutators { rt with traceBuff := b } req).Path } : Request) = arriving ops req := by
      rw [arriving, mutated, Runtime.runMutators, hb.mutators]
    rw [Runtime.onRequest]; simp only [harr]
  exact (request_same' hm always (arriving ops req) hne).of (arriving ops) (fun R h => contents_path (respect _ _ h) UriNormalize.normalize) (fun R b _ => e1 R b)

end Indigo.Router
