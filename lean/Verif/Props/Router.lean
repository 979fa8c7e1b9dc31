/-
C35 Static routing is exact.
C36 Dynamic routing (the whole router).
C38 Middlewares run in registration order around the handler.
C39 The most specific catcher wins.
C41 Error handlers are chosen by status code.
C42 TRACE echoes only the request itself.
C57 Aliases.
C59 Group prefixes.
-/
import Verif.Proofs.Router6
import Verif.Props.Radix

namespace Indigo.Props

open Indigo.Router Indigo.Spec.Router

variable {m : Type → Type} [Monad m] {req' : Request}

/-! ### Witnesses: a concrete router -/

/-- Insertion into a list of catchers, longer prefixes first. -/
def insertCatcher (c : Catcher m) : List (Catcher m) → List (Catcher m)
  | [] => [c]
  | d :: ds => if d.Prefix.length ≤ c.Prefix.length then c :: d :: ds else d :: insertCatcher c ds

omit [Monad m] in
theorem insertCatcher_perm (c : Catcher m) (l : List (Catcher m)) : (insertCatcher c l).Perm (c :: l) := by
  induction l with
  | nil => exact List.Perm.refl _
  | cons d l ih =>
    simp only [insertCatcher]
    split
    · exact List.Perm.refl _
    · exact (ih.cons d).trans (List.Perm.swap c d l)

omit [Monad m] in
theorem insertCatcher_sorted (c : Catcher m) (l : List (Catcher m))
    (h : l.Pairwise (fun a b => a.Prefix.length ≥ b.Prefix.length)) :
    (insertCatcher c l).Pairwise (fun a b => a.Prefix.length ≥ b.Prefix.length) := by
  induction l with
  | nil => simp [insertCatcher]
  | cons d l ih =>
    rw [List.pairwise_cons] at h
    simp only [insertCatcher]
    split
    · rename_i hd
      refine List.pairwise_cons.2 ⟨?_, List.pairwise_cons.2 h⟩
      intro a ha
      rcases List.mem_cons.1 ha with rfl | ha
      · exact hd
      · have := h.1 a ha; omega
    · rename_i hd
      refine List.pairwise_cons.2 ⟨?_, ih h.2⟩
      intro a ha
      rcases List.mem_cons.1 ((insertCatcher_perm c l).mem_iff.1 ha) with rfl | ha
      · omega
      · exact h.1 a ha

/-- The maps are visited in the order of insertion. -/
def sampleEnv : Env m where
  routes r := r
  routes_perm r := List.Perm.refl r
  methods r := r
  methods_perm r := List.Perm.refl r
  sort l := l.foldr insertCatcher []
  sort_perm l := by
    induction l with
    | nil => exact List.Perm.refl _
    | cons c l ih => exact (insertCatcher_perm c _).trans (ih.cons c)
  sort_sorted l := by
    induction l with
    | nil => exact List.Pairwise.nil
    | cons c l ih => exact insertCatcher_sorted c _ ih

/-- ASCII case folding. -/
def sampleFold : Fold where
  f := lowerByte
  case_insensitive := byte_forall (by decide +kernel)
  separates := fun _ _ _ _ h => h

/-- A handler which responds with this text. -/
private def say (s : Bytes) : Handler Id := fun req => (Fields.new.bytes s, req)

/-- A middleware which adds a letter to the front of the body of the response. -/
private def mark (c : Byte) : Middleware Id := fun next req =>
  let (f, req) := next req
  ({ f with Body := c :: f.Body }, req)

private def sampleOps : List (Op Id) :=
  [.use 0 [mark 65],
   .group 0 b!"/api",
   .use 1 [mark 66, mark 67],
   .route 1 .GET b!"/users" (say b!"users") [mark 68],
   .route 1 .POST b!"/users" (say b!"new user") [],
   .group 1 b!"/v2",
   .route 2 .GET b!"/users" (say b!"users v2") [mark 69],
   .route 0 .GET b!"/" (say b!"root") [],
   .catch 0 b!"/static" (say b!"file") [],
   .catch 1 b!"/static/img" (say b!"image") [],
   .catch 0 b!"/api" (say b!"api") [],
   .routeError 0 (say b!"oops") [Status.NotFound],
   .alias 1 b!"/people" b!"/api/users"]

private theorem sample_made : ∃ rt, make sampleFold (fun _ => []) sampleEnv sampleOps = some rt := ⟨_, rfl⟩

/-! ### C35, C38, C59: routes -/

section
variable {F : Fold} {text : GoErr → Bytes} {env : Env m} {ops : List (Op m)} {rt : Runtime m}

omit [Monad m] in
theorem allow_methods (p : Bytes) (e : Endpoint m)
    (h : ∀ mt x, e.methodsMap mt = some x ↔ ((p, mt), x) ∈ declared ops) :
    allMethods.filter (fun i => (e.methodsMap i).isSome) = methodsOf ops p := by
  have : allMethods = [.Unknown, .GET, .HEAD, .POST, .PUT, .DELETE, .CONNECT, .OPTIONS, .TRACE, .PATCH] := rfl
  rw [methodsOf, this]
  refine List.filter_congr ?_
  intro mt _
  rw [Bool.eq_iff_iff, Option.isSome_iff_exists, List.any_eq_true]
  simp only [h, decide_eq_true_eq]
  constructor
  · rintro ⟨x, hx⟩; exact ⟨_, hx, rfl⟩
  · rintro ⟨⟨k, x⟩, hx, hk⟩; exact ⟨x, by rw [← hk]; exact hx⟩

omit [Monad m] in
theorem methodsOf_mem (p : Bytes) (mt : Method) :
    mt ∈ methodsOf ops p ↔ (p, mt) ∈ (declared ops).map (·.1) := by
  simp only [methodsOf, List.mem_filter, List.any_eq_true, decide_eq_true_eq, List.mem_map]
  constructor
  · exact fun h => h.2
  · intro h; refine ⟨?_, h⟩; cases mt <;> decide

theorem arriving_eq (hb : Built F text ops rt) (req : Request) :
    ({ rt.runMutators req with Path := UriNormalize.normalize (rt.runMutators req).Path } : Request) =
      arriving ops req := by
  rw [arriving, mutated, Runtime.runMutators, hb.mutators]

private theorem static_onRequest (hm : make F text env ops = some rt) (hs : Static ops) (req : Request) :
    (rt.onRequest F req = some (rt.onError' F (arriving ops req) (.http Status.ErrNotFound)) ∧
      methodsOf ops (arriving ops req).Path = []) ∨
    (∃ e : Endpoint m, (∀ mt x, e.methodsMap mt = some x ↔ (((arriving ops req).Path, mt), x) ∈ declared ops) ∧
      methodsOf ops (arriving ops req).Path ≠ [] ∧
      e.allow = commas ((methodsOf ops (arriving ops req).Path).map Method.toBytes) ∧
      rt.onRequest F req = some (rt.dispatch F (arriving ops req) e)) := by
  have hb := built F text env ops rt hm
  obtain ⟨R, hR, hok⟩ := hb.static (fun d hd => (parse_static _ (hs d hd)).2)
  have e1 : rt.onRequest F req = rt.onRequest' F (arriving ops req) := by
    rw [Runtime.onRequest]; simp only [arriving_eq hb]
  rw [e1, Runtime.onRequest', hR]
  simp only
  have := hok (arriving ops req).Path
  cases hg : R.get? (arriving ops req).Path with
  | none =>
    rw [hg] at this
    refine Or.inl ⟨rfl, ?_⟩
    rw [List.eq_nil_iff_forall_not_mem]
    intro mt hmt
    obtain ⟨d, hd, he⟩ := List.mem_map.1 ((methodsOf_mem _ _).1 hmt)
    exact this d hd (by rw [he])
  | some e =>
    rw [hg] at this
    obtain ⟨⟨d, hd, hdp⟩, h2, h3⟩ := this
    refine Or.inr ⟨e, h2, ?_, ?_, rfl⟩
    · intro hh
      have : d.1.2 ∈ methodsOf ops (arriving ops req).Path :=
        (methodsOf_mem _ _).2 (by rw [← hdp]; exact List.mem_map_of_mem (f := (·.1)) hd)
      rw [hh] at this
      simp at this
    · rw [h3, allow_eq, allow_methods _ _ h2]

theorem dispatch_some (req : Request) (e : Endpoint m) (h : Handler m)
    (hg : Runtime.getHandler req.Method e.methodsMap = some h) (ms : List Method)
    (ha : e.allow = commas (ms.map Method.toBytes)) : rt.dispatch F req e = (h (allowing req ms), rt) := by
  rw [Runtime.dispatch]
  simp only [hg, ha]
  rfl

/-- A request for a registered path and method is passed to the handler registered for them, once, and nothing else
happens. (In this model, `rt.onRequest` returns what is done and the router afterwards; `none` is a panic.) The
handler is told the methods registered for the path. -/
theorem C35_registered (hm : make F text env ops = some rt) (hs : Static ops) (req : Request) (h : Handler m)
    (hd : (((arriving ops req).Path, req'.Method), h) ∈ declared ops) (hr : req' = arriving ops req) :
    rt.onRequest F req = some (h (allowing req' (methodsOf ops req'.Path)), rt) := by
  subst hr
  rcases static_onRequest hm hs req with ⟨-, h0⟩ | ⟨e, h1, -, h3, h4⟩
  · have := (methodsOf_mem (arriving ops req).Path (arriving ops req).Method).2 (List.mem_map_of_mem (f := (·.1)) hd)
    rw [h0] at this
    simp at this
  · rw [h4, dispatch_some _ e h ?_ _ h3]
    rw [Runtime.getHandler, (h1 _ _).2 hd]

/-- HEAD requests are passed to the handler for GET if there is none for HEAD. -/
theorem C35_head (hm : make F text env ops = some rt) (hs : Static ops) (req : Request) (h : Handler m)
    (hr : req' = arriving ops req) (hh : req'.Method = .HEAD) (hn : Method.HEAD ∉ methodsOf ops req'.Path)
    (hd : ((req'.Path, Method.GET), h) ∈ declared ops) :
    rt.onRequest F req = some (h (allowing req' (methodsOf ops req'.Path)), rt) := by
  subst hr
  rcases static_onRequest hm hs req with ⟨-, h0⟩ | ⟨e, h1, -, h3, h4⟩
  · have := (methodsOf_mem (arriving ops req).Path .GET).2 (List.mem_map_of_mem (f := (·.1)) hd)
    rw [h0] at this
    simp at this
  · have : e.methodsMap .HEAD = none := by
      cases hc : e.methodsMap .HEAD with
      | none => rfl
      | some x => exact absurd ((methodsOf_mem _ _).2 (List.mem_map_of_mem (f := (·.1)) ((h1 _ _).1 hc))) hn
    rw [h4, dispatch_some _ e h ?_ _ h3]
    rw [Runtime.getHandler, hh, this]
    simp only [if_true]
    exact (h1 _ _).2 hd

private theorem errors_exist (hb : Built F text ops rt) (code : Status.Code) :
    rt.retrieveErrorHandler code = handlerFor F text ops code := by
  rw [Runtime.retrieveErrorHandler, handlerFor, ← hb.errs, ← hb.errs]
  cases rt.errHandlers.get? code <;> rfl

theorem dispatch_none (hb : Built F text ops rt) (req : Request) (e : Endpoint m)
    (hn : e.methodsMap req.Method = none) (hg : req.Method = .HEAD → e.methodsMap .GET = none)
    (ht : req.Method ≠ .TRACE) (ms : List Method) (ha : e.allow = commas (ms.map Method.toBytes)) (h : Handler m)
    (hh : handlerFor F text ops Status.MethodNotAllowed = some h) :
    rt.dispatch F req e = (h (failing (allowing req ms) (.http Status.ErrMethodNotAllowed)), rt) := by
  rw [Runtime.dispatch]
  have : Runtime.getHandler req.Method e.methodsMap = none := by
    rw [Runtime.getHandler, hn]
    simp only
    split
    · rename_i hx; exact hg hx
    · rfl
  simp only [this]
  rw [Runtime.onError', if_neg (fun hx => ht hx.1)]
  simp only
  rw [if_neg (by decide)]
  simp only [errors_exist hb]
  have hcode : Status.ErrMethodNotAllowed.Code = Status.MethodNotAllowed := rfl
  rw [hcode, hh, ha]
  rfl

/-- There always is a handler for an error. -/
theorem C41_always_one (F : Fold) (text : GoErr → Bytes) (ops : List (Op m)) (code : Status.Code) :
    ∃ h, handlerFor F text ops code = some h := by
  have : ∃ h, lastFor (errorHandlers (defaults F text) ops) 0 = some h := by
    rw [errorHandlers, lastFor_map _ (wrap (uses ops 0)), lastFor_append]
    have : lastFor (defaults F text) 0 = some (defaultAllErrorsHandler (m := m) text) := rfl
    rw [this]
    cases lastFor _ (0 : Status.Code) <;> exact ⟨_, rfl⟩
  obtain ⟨h, hh⟩ := this
  rw [handlerFor, hh]
  cases lastFor (errorHandlers (defaults F text) ops) code <;> exact ⟨_, rfl⟩

/-- A method which is not registered for a registered path is an error 405, with exactly the registered methods
allowed (they are separated by commas). The exceptions are HEAD if there is GET, and TRACE (C42). -/
theorem C35_method_not_allowed (hm : make F text env ops = some rt) (hs : Static ops) (req : Request)
    (hr : req' = arriving ops req) (hp : methodsOf ops req'.Path ≠ [])
    (hn : req'.Method ∉ methodsOf ops req'.Path) (hg : req'.Method = .HEAD → Method.GET ∉ methodsOf ops req'.Path)
    (ht : req'.Method ≠ .TRACE) :
    ∃ h, handlerFor F text ops Status.MethodNotAllowed = some h ∧
      rt.onRequest F req = some (h (failing (allowing req' (methodsOf ops req'.Path))
        (.http Status.ErrMethodNotAllowed)), rt) := by
  subst hr
  have hb := built F text env ops rt hm
  obtain ⟨h, hh⟩ := C41_always_one F text ops Status.MethodNotAllowed
  refine ⟨h, hh, ?_⟩
  rcases static_onRequest hm hs req with ⟨-, h0⟩ | ⟨e, h1, -, h3, h4⟩
  · exact absurd h0 hp
  · have hnone : ∀ mt, mt ∉ methodsOf ops (arriving ops req).Path → e.methodsMap mt = none := by
      intro mt hmt
      cases hc : e.methodsMap mt with
      | none => rfl
      | some x => exact absurd ((methodsOf_mem _ _).2 (List.mem_map_of_mem (f := (·.1)) ((h1 _ _).1 hc))) hmt
    rw [h4, dispatch_none hb _ e (hnone _ hn) (fun hx => hnone _ (hg hx)) ht _ h3 h hh]

/-- The handler for 405 every router has from the beginning responds with this code and the header `Allow`. -/
theorem C35_allow_header (F : Fold) (text : GoErr → Bytes) (req : Request) :
    ∃ f, (defaultMethodNotAllowedHandler F text : Handler m) req = pure (f, req) ∧
      f.Code = 405 ∧ f.Headers = [⟨b!"Allow", req.Env.AllowedMethods⟩] ∧ f.Body = [] := by
  refine ⟨_, rfl, ?_⟩
  have h1 : F.eq b!"Allow" b!"content-type" = false := by
    simp [Fold.eq]
  have h2 : F.eq b!"Allow" b!"transfer-encoding" = false := by
    simp [Fold.eq]
  simp [Fields.header, h1, h2, Fields.error, Fields.code, Fields.new]
  decide

/-! ### C39: catchers -/

/-- What happens to a request which is not found. -/
theorem notFound_outcome (hb : Built F text ops rt) (req' : Request) :
    (∃ p h, (p, h) ∈ catchers ops ∧ p <+: req'.Path ∧ (∀ c ∈ catchers ops, c.1 <+: req'.Path → c.1.length ≤ p.length) ∧
      rt.onError' F req' (.http Status.ErrNotFound) = (h req', rt)) ∨
    ((∀ c ∈ catchers ops, ¬ c.1 <+: req'.Path) ∧ ∃ h, handlerFor F text ops Status.NotFound = some h ∧
      rt.onError' F req' (.http Status.ErrNotFound) = (h (failing req' (.http Status.ErrNotFound)), rt)) := by
  rw [Runtime.onError', if_neg (fun hx => absurd hx.2 (by decide))]
  simp only [if_true]
  have hmem : ∀ c, c ∈ catchers ops ↔ ∃ x ∈ rt.catchers, (x.Prefix, x.Handler) = c := by
    intro c; rw [← hb.catchers.mem_iff, List.mem_map]
  cases hf : rt.catchers.find? (fun c => c.Prefix.isPrefixOf req'.Path) with
  | some c =>
    left
    obtain ⟨as, bs, h1, h2⟩ := List.find?_eq_some_iff_append.1 hf |>.2
    have hp := (List.find?_eq_some_iff_append.1 hf).1
    refine ⟨c.Prefix, c.Handler, (hmem _).2 ⟨c, by rw [h1]; simp, rfl⟩, List.isPrefixOf_iff_prefix.1 hp, ?_, rfl⟩
    intro x hx hxp
    obtain ⟨y, hy, rfl⟩ := (hmem x).1 hx
    rw [h1] at hy
    rcases List.mem_append.1 hy with hy | hy
    · have := h2 y hy
      simp only [Bool.not_eq_true'] at this
      rw [List.isPrefixOf_iff_prefix.2 hxp] at this
      simp at this
    · have hsrt := hb.sorted
      rw [h1] at hsrt
      have := (List.pairwise_append.1 hsrt).2.1
      rcases List.mem_cons.1 hy with rfl | hy
      · exact Nat.le_refl _
      · exact (List.pairwise_cons.1 this).1 y hy
  | none =>
    right
    obtain ⟨h, hh⟩ := C41_always_one F text ops Status.NotFound
    refine ⟨?_, h, hh, ?_⟩
    · intro c hc hcp
      obtain ⟨y, hy, rfl⟩ := (hmem c).1 hc
      exact absurd (List.isPrefixOf_iff_prefix.2 hcp) (List.find?_eq_none.1 hf y hy)
    · simp only [errors_exist hb]
      have hcode : Status.ErrNotFound.Code = Status.NotFound := rfl
      rw [hcode, hh]
      rfl

/-- A path which is not registered, for any method, is passed to the catcher with the longest prefix of the path;
without such a catcher it is an error 404. -/
theorem C39_not_registered (hm : make F text env ops = some rt) (hs : Static ops) (req : Request)
    (hr : req' = arriving ops req) (hn : methodsOf ops req'.Path = []) :
    (∃ p h, (p, h) ∈ catchers ops ∧ p <+: req'.Path ∧ (∀ c ∈ catchers ops, c.1 <+: req'.Path → c.1.length ≤ p.length) ∧
      rt.onRequest F req = some (h req', rt)) ∨
    ((∀ c ∈ catchers ops, ¬ c.1 <+: req'.Path) ∧ ∃ h, handlerFor F text ops Status.NotFound = some h ∧
      rt.onRequest F req = some (h (failing req' (.http Status.ErrNotFound)), rt)) := by
  subst hr
  have hb := built F text env ops rt hm
  have h4 : rt.onRequest F req = some (rt.onError' F (arriving ops req) (.http Status.ErrNotFound)) := by
    rcases static_onRequest hm hs req with ⟨h, -⟩ | ⟨e, -, h2, -⟩
    · exact h
    · exact absurd hn h2
  rw [h4]
  simpa using notFound_outcome hb (arriving ops req)

/-! ### C41: error handlers -/

/-- An error reported by the server reaches the handler registered for its status code, or the one for all errors;
the handler finds the error in the request. (Catchers take 404, and TRACE requests are echoed instead of 405.) -/
theorem C41_chosen (hm : make F text env ops = some rt) (req : Request) (e : Status.HTTPError)
    (h404 : e = Status.ErrNotFound → ∀ c ∈ catchers ops, ¬ c.1 <+: (mutated ops req).Path)
    (htr : (mutated ops req).Method = .TRACE → e ≠ Status.ErrMethodNotAllowed) :
    ∃ h, handlerFor F text ops e.Code = some h ∧
      rt.onError F req (.http e) = (h (failing (mutated ops req) (.http e)), rt) := by
  have hb := built F text env ops rt hm
  obtain ⟨h, hh⟩ := C41_always_one F text ops e.Code
  refine ⟨h, hh, ?_⟩
  have hmut : rt.runMutators req = mutated ops req := by rw [mutated, Runtime.runMutators, hb.mutators]
  rw [Runtime.onError, hmut, Runtime.onError', if_neg (fun hx => htr hx.1 (by simpa using hx.2))]
  simp only
  have hc : (if GoErr.http e = .http Status.ErrNotFound then
      rt.catchers.find? (fun c => c.Prefix.isPrefixOf (mutated ops req).Path) else none) = none := by
    split
    · rename_i he
      rw [List.find?_eq_none]
      intro x hx hxp
      refine h404 (by simpa using he) (x.Prefix, x.Handler) ?_ (List.isPrefixOf_iff_prefix.1 hxp)
      rw [← hb.catchers.mem_iff]
      exact List.mem_map_of_mem (f := fun c : Catcher m => (c.Prefix, c.Handler)) hx
    · rfl
  rw [hc]
  simp only [errors_exist hb, hh]
  rfl

/-- What the error handlers are: the last one registered for the code counts; one registered without codes is for all
errors. They are inside of the middlewares of the root, those added later included. -/
theorem C41_last_counts (F : Fold) (text : GoErr → Bytes) (before after : List (Op m)) (r : Nat) (h : Handler m)
    (codes : List Status.Code) (code : Status.Code) (hc : code ∈ codes)
    (hlast : ∀ r' h' codes', Op.routeError r' h' codes' ∈ after → code ∉ codes' ∧ (codes' = [] → code ≠ 0)) :
    handlerFor F text (before ++ .routeError r h codes :: after) code =
      some (wrap (uses (before ++ .routeError r h codes :: after) 0) h) := by
  have e : ∀ ops : List (Op m), errorHandlers (defaults F text) ops =
      (defaults F text ++ ops.flatMap errItems).map (fun e : Status.Code × Handler m => (e.1, wrap (uses ops 0) e.2)) := by
    intro ops
    rw [errorHandlers]
    congr 2
  rw [handlerFor, e, lastFor_map _ (wrap (uses _ 0)), lastFor_map _ (wrap (uses _ 0))]
  rw [List.flatMap_append, List.flatMap_cons, lastFor_append, lastFor_append, lastFor_append]
  have h1 : lastFor (after.flatMap errItems) code = none := by
    rw [lastFor, Option.map_eq_none_iff, List.find?_eq_none]
    intro x hx
    rw [List.mem_reverse, List.mem_flatMap] at hx
    obtain ⟨op, hop, hx⟩ := hx
    cases op with
    | routeError r' h' codes' =>
      simp only [errItems, List.mem_map] at hx
      obtain ⟨c, hcc, rfl⟩ := hx
      obtain ⟨l1, l2⟩ := hlast r' h' codes' hop
      split at hcc
      · rename_i hnil
        simp at hcc; subst hcc
        have := l2 hnil
        simp only [decide_eq_true_eq]; exact fun e => this e.symm
      · simp only [decide_eq_true_eq]; rintro rfl; exact l1 hcc
    | _ => simp [errItems] at hx
  rw [h1]
  have h2 : lastFor (errItems (Op.routeError r h codes)) code = some h := by
    have hne : ¬ codes = [] := by rintro rfl; simp at hc
    rw [errItems, if_neg hne, lastFor, ← List.map_reverse, List.find?_map]
    cases hf : codes.reverse.find? ((fun e : Status.Code × Handler m => decide (e.1 = code)) ∘ fun c => (c, h)) with
    | none =>
      rw [List.find?_eq_none] at hf
      exact absurd (by simp) (hf code (by simpa using hc))
    | some c => rfl
  rw [h2]
  rfl

/-- Without a handler of the user, the response has the status code of the error. -/
theorem C41_default_code (text : GoErr → Bytes) (req : Request) (e : Status.HTTPError) :
    ∃ f, (defaultAllErrorsHandler text : Handler m) (failing req (.http e)) = pure (f, failing req (.http e)) ∧
      f.Code = e.Code := ⟨_, rfl, rfl⟩

/-- Errors of other kinds, without a status code, are answered with 500; no handler is called, not even the one for all errors. -/
theorem C41_other_errors (hm : make F text env ops = some rt) (req : Request) (err : GoErr) (h : ∀ e, err ≠ .http e) :
    rt.onError F req err = (pure (Fields.new.code 500, mutated ops req), rt) := by
  have hb := built F text env ops rt hm
  have hmut : rt.runMutators req = mutated ops req := by rw [mutated, Runtime.runMutators, hb.mutators]
  rw [Runtime.onError, hmut, Runtime.onError', if_neg (fun hx => h _ hx.2)]
  · cases err with
    | http e => exact absurd rfl (h e)
    | eof => rfl
    | other n => rfl
  · exact h

/-- C41: there are such errors. -/
example : ∀ e, GoErr.eof ≠ .http e := by simp

/-! ### C38: middlewares -/

/-- A handler is called inside of the middlewares of the root, then of the groups on the way to the router it is
registered on, then of this router, then of the route itself; each list in the order of registration. -/
theorem C38_routes (hm : make F text env ops = some rt) (hs : Static ops) (r : Nat) (meth : Method) (path : Bytes)
    (h : Handler m) (mws : List (Middleware m)) (hop : Op.route r meth path h mws ∈ ops) (req : Request)
    (hp : (arriving ops req).Path = UriNormalize.normalize (prefixOf ops r ++ path))
    (hmt : (arriving ops req).Method = meth) :
    rt.onRequest F req = some (wrap (around ops r ++ mws) h
      (allowing (arriving ops req) (methodsOf ops (arriving ops req).Path)), rt) := by
  refine C35_registered hm hs req _ ?_ rfl
  rw [declared, List.mem_flatMap]
  exact ⟨_, hop, by simp [hp, hmt]⟩

/-- The same for catchers (if there is no other one with the same path, or a longer one). -/
theorem C38_catchers (hm : make F text env ops = some rt) (hs : Static ops) (req : Request)
    (hn : methodsOf ops (arriving ops req).Path = []) (before after : List (Op m)) (r : Nat) (pre : Bytes)
    (h : Handler m) (mws : List (Middleware m)) (hop : ops = before ++ Op.catch r pre h mws :: after)
    (hp : GoPath.join (prefixOf ops r) pre <+: (arriving ops req).Path)
    (hlongest : ∀ r' pre' h' mws', Op.catch r' pre' h' mws' ∈ before ++ after →
      GoPath.join (prefixOf ops r') pre' <+: (arriving ops req).Path →
      (GoPath.join (prefixOf ops r') pre').length < (GoPath.join (prefixOf ops r) pre).length) :
    rt.onRequest F req = some (wrap (around ops r ++ mws) h (arriving ops req), rt) := by
  have hmem : (GoPath.join (prefixOf ops r) pre, wrap (around ops r ++ mws) h) ∈ catchers ops := by
    rw [catchers, List.mem_flatMap]
    exact ⟨Op.catch r pre h mws, by rw [hop]; simp, by simp⟩
  rcases C39_not_registered hm hs req rfl hn with ⟨p, x, h1, h2, h3, h4⟩ | ⟨h1, -⟩
  · have := h3 _ hmem hp
    rw [catchers, List.mem_flatMap] at h1
    obtain ⟨op, ho, hx⟩ := h1
    cases op with
    | «catch» r' pre' h' mws' =>
      simp only [List.mem_singleton, Prod.mk.injEq] at hx
      obtain ⟨rfl, rfl⟩ := hx
      have ho' : Op.catch r' pre' h' mws' ∈ before ++ Op.catch r pre h mws :: after := by rw [← hop]; exact ho
      have : Op.catch r' pre' h' mws' = Op.catch r pre h mws := by
        refine Classical.byContradiction fun hne => ?_
        have hin : Op.catch r' pre' h' mws' ∈ before ++ after := by
          rcases List.mem_append.1 ho' with hh | hh
          · exact List.mem_append_left _ hh
          · rcases List.mem_cons.1 hh with hh | hh
            · exact absurd hh hne
            · exact List.mem_append_right _ hh
        have := hlongest r' pre' h' mws' hin h2
        simp only at *
        omega
      simp only [Op.catch.injEq] at this
      obtain ⟨rfl, rfl, rfl, rfl⟩ := this
      exact h4
    | _ => simp at hx
  · exact absurd hp (h1 _ hmem)

/-- Middlewares are called in the order of the list, each once, before the handler: if each of them does something and
then calls the next one, all of that is done in this order, and then the handler is called. -/
theorem C38_order [LawfulMonad m] (acts : List (Request → m Request)) (h : Handler m) (req : Request) :
    wrap (acts.map (fun act next req => act req >>= next)) h req =
      (acts.foldl (fun acc act => acc >>= act) (pure req)) >>= h := by
  have key : ∀ (x : m Request), x >>= wrap (acts.map (fun act next req => act req >>= next)) h =
      (acts.foldl (fun acc act => acc >>= act) x) >>= h := by
    induction acts with
    | nil => intro x; rfl
    | cons a acts ih =>
      intro x
      rw [List.map_cons, List.foldl_cons, ← ih]
      simp only [wrap, bind_assoc]
  have := key (pure req)
  rwa [pure_bind] at this

/-! ### C59: groups -/

/-- All routes of all groups are there, under the joined prefixes, and nothing else. -/
theorem C59_reachable (hm : make F text env ops = some rt) (hs : Static ops) (req : Request)
    (hn : (arriving ops req).Method ≠ .HEAD) (htr : (arriving ops req).Method ≠ .TRACE) :
    (∀ r meth path h mws, Op.route r meth path h mws ∈ ops →
      (arriving ops req).Path = UriNormalize.normalize (prefixOf ops r ++ path) → (arriving ops req).Method = meth →
      rt.onRequest F req = some (wrap (around ops r ++ mws) h
        (allowing (arriving ops req) (methodsOf ops (arriving ops req).Path)), rt)) ∧
    ((∀ r meth path h mws, Op.route r meth path h mws ∈ ops →
      (arriving ops req).Path = UriNormalize.normalize (prefixOf ops r ++ path) → (arriving ops req).Method ≠ meth) →
      ∃ h req', rt.onRequest F req = some (h req', rt) ∧
        (handlerFor F text ops Status.MethodNotAllowed = some h ∨ handlerFor F text ops Status.NotFound = some h ∨
         ∃ p, (p, h) ∈ catchers ops)) := by
  refine ⟨fun r meth path h mws hop hp hmt => C38_routes hm hs r meth path h mws hop req hp hmt, ?_⟩
  intro hno
  have hnot : (arriving ops req).Method ∉ methodsOf ops (arriving ops req).Path := by
    intro hh
    obtain ⟨d, hd, he⟩ := List.mem_map.1 ((methodsOf_mem _ _).1 hh)
    rw [declared, List.mem_flatMap] at hd
    obtain ⟨op, hop, hd⟩ := hd
    cases op with
    | route r meth path h mws =>
      simp only [List.mem_singleton] at hd
      rw [hd] at he
      simp only [Prod.mk.injEq] at he
      exact hno r meth path h mws hop he.1.symm he.2.symm
    | _ => simp at hd
  by_cases hp : methodsOf ops (arriving ops req).Path = []
  · rcases C39_not_registered hm hs req rfl hp with ⟨p, h, h1, -, -, h4⟩ | ⟨-, h, h1, h2⟩
    · exact ⟨h, _, h4, Or.inr (Or.inr ⟨p, h1⟩)⟩
    · exact ⟨h, _, h2, Or.inr (Or.inl h1)⟩
  · obtain ⟨h, h1, h2⟩ := C35_method_not_allowed hm hs req rfl hp hnot (fun e => absurd e hn) htr
    exact ⟨h, _, h2, Or.inl h1⟩

/-- A router without variables is refused exactly if a call is made on a router which does not exist (which a Go
program cannot do), a path does not start with a slash, two routes have the same path and method, or a router has two
catchers for the same path. -/
theorem C59_conflicts (F : Fold) (text : GoErr → Bytes) (env : Env m) (ops : List (Op m)) (hs : Static ops) :
    (∃ rt, make F text env ops = some rt) ↔
      WellReferenced ops ∧ (∀ d ∈ declared ops, d.1.1.head? = some SLASH) ∧ ((declared ops).map (·.1)).Nodup ∧
      ∀ r, (ownCatcherPaths ops r).Nodup := by
  rw [← Option.isSome_iff_exists]
  constructor
  · intro h
    have := build_sound F text env ops h
    exact ⟨this.refs, fun d hd => (parse_static _ (hs d hd)).1.1 (this.parsed d hd), this.nodup, this.caught⟩
  · rintro ⟨h1, h2, h3, h4⟩
    obtain ⟨L, -, hL⟩ := build_isSome F text env ops
      ⟨h1, fun d hd => (parse_static _ (hs d hd)).1.2 (h2 d hd), h3, h4⟩
    refine hL.2 ?_
    rintro ⟨d, hd, hdyn⟩
    rw [(parse_static _ (hs d hd)).2] at hdyn
    simp at hdyn

/-! ### C36: routers with variables -/

omit [Monad m] in
/-- The order in which the methods of a template are listed. -/
theorem tree_allow {L : List (Bytes × Endpoint m)} (h : TreeOk L (declared ops)) {p : Bytes} {e : Endpoint m}
    (he : (p, e) ∈ L) : ∃ ms : List Method, ms.Perm (methodsOf ops p) ∧ e.allow = commas (ms.map Method.toBytes) := by
  obtain ⟨ms, h1, h2, h3, h4⟩ := h.allow p e he
  refine ⟨ms, ?_, by rw [h4, trim_commas ms h2]⟩
  have hn : (methodsOf ops p).Nodup := List.Nodup.sublist List.filter_sublist (by decide)
  refine (List.perm_ext_iff_of_nodup h1 hn).2 ?_
  intro mt
  rw [h3, Option.isSome_iff_exists]
  simp only [h.methods p e he, methodsOf_mem, List.mem_map]
  constructor
  · rintro ⟨x, hx⟩; exact ⟨_, hx, rfl⟩
  · rintro ⟨⟨k, x⟩, hx, rfl⟩; exact ⟨x, hx⟩

open Indigo.Spec.Radix in
/-- These are the templates of the routes: all of them are of the kind the code understands (C36_parse_partial), and at
least one has a variable. -/
structure Templates (ops : List (Op m)) (ts : List Tmpl) : Prop where
  writable : ∀ t ∈ ts, Writable t
  all : ∀ d ∈ declared ops, ∃ t ∈ ts, d.1.1 = Spec.Radix.text t
  only : ∀ t ∈ ts, ∃ d ∈ declared ops, d.1.1 = Spec.Radix.text t
  dynamic : ∃ t ∈ ts, ∃ n, .var n ∈ t

omit [Monad m] in
private theorem unshadowed_congr {ts ts' : List Spec.Radix.Tmpl} (h : ∀ t, t ∈ ts ↔ t ∈ ts') (t : Spec.Radix.Tmpl)
    (ss : List Bytes) : Spec.Radix.Unshadowed ts t ss ↔ Spec.Radix.Unshadowed ts' t ss := by
  unfold Spec.Radix.Unshadowed
  simp only [h]

open Indigo.Spec.Radix in
omit [Monad m] in
theorem text_inj {t t' : Tmpl} (h : Writable t) (h' : Writable t') (e : Spec.Radix.text t = Spec.Radix.text t') : t = t' :=
  C37_parse_partial t t' h h' (by rw [e])

open Indigo.Spec.Radix in
omit [Monad m] in
private theorem templates_dynamic {ts : List Tmpl} (ht : Templates ops ts) :
    ∃ d ∈ declared ops, isDyn d.1.1 = true := by
  obtain ⟨t0, ht0, n0, hn0⟩ := ht.dynamic
  obtain ⟨d, hd, hdt⟩ := ht.only t0 ht0
  refine ⟨d, hd, ?_⟩
  rw [hdt, isDyn, Radix.Node.parse_text t0 (ht.writable t0 ht0)]
  have : ∀ l : Tmpl, Part.var n0 ∈ l → Radix.isStatic (l.map Radix.Node.seg) = false := by
    intro l
    induction l with
    | nil => simp
    | cons a l ih =>
      intro hh
      rw [List.map_cons, Radix.isStatic]
      rcases List.mem_cons.1 hh with rfl | hh
      · rfl
      · split
        · rfl
        · exact ih hh
  simp [this t0 hn0]

omit [Monad m] in
theorem pairwise_forall {α : Type} {R : α → α → Prop} (hr : ∀ a, R a a) (hs : ∀ a b, R a b → R b a)
    {l : List α} (h : l.Pairwise R) : ∀ x ∈ l, ∀ y ∈ l, R x y := by
  induction h with
  | nil => simp
  | cons h1 _ ih =>
    intro x hx y hy
    rcases List.mem_cons.1 hx with rfl | hx' <;> rcases List.mem_cons.1 hy with rfl | hy'
    · exact hr _
    · exact h1 _ hy'
    · exact hs _ _ (h1 _ (by assumption))
    · exact ih x (by assumption) y (by assumption)

omit [Monad m] in
theorem pairwise_of_forall {α : Type} {R : α → α → Prop} {l : List α} (h : ∀ x ∈ l, ∀ y ∈ l, R x y) :
    l.Pairwise R := by
  induction l with
  | nil => exact List.Pairwise.nil
  | cons a l ih =>
    exact List.Pairwise.cons (fun y hy => h a (by simp) y (by simp [hy]))
      (ih (fun x hx y hy => h x (by simp [hx]) y (by simp [hy])))

open Indigo.Spec.Radix in
theorem tree_match (hm : make F text env ops = some rt) {ts : List Tmpl} (ht : Templates ops ts) :
    ∃ (tree : Radix.Node (Endpoint m)) (ps : List (Tmpl × Endpoint m)), rt.table = .dynamic tree ∧
      (∀ t, t ∈ ps.map (·.1) ↔ t ∈ ts) ∧
      (∀ t e, (t, e) ∈ ps → (∀ mt x, e.methodsMap mt = some x ↔ ((Spec.Radix.text t, mt), x) ∈ declared ops) ∧
        ∃ ms : List Method, ms.Perm (methodsOf ops (Spec.Radix.text t)) ∧ e.allow = commas (ms.map Method.toBytes)) ∧
      ∀ path params params' p, tree.«match» (47 :: path) params = .done (some p) params' ↔
      ∃ t b, ((t, p) ∈ ps ∨ (t = [] ∧ p = {} ∧ [] ∉ ts)) ∧
        Instance t (sections path) b ∧ Unshadowed ts t (sections path) ∧
        params' = { params with pairs := params.pairs ++ b.map (fun e => ⟨e.1, e.2⟩) } := by
  have hb := built F text env ops rt hm
  have hdyn := templates_dynamic ht
  obtain ⟨tree, L, h1, h2, h3⟩ := hb.dynamic hdyn
  obtain ⟨ps, hps, hmem⟩ := trees L ts (by
    intro x hx
    obtain ⟨d, hd, hdp⟩ := h3.sound x.1 x.2 hx
    obtain ⟨t, htt, hdt⟩ := ht.all d hd
    exact ⟨t, htt, by rw [← hdp, hdt]⟩)
  subst hps
  have hw : ∀ t ∈ ps, Writable t.1 := fun t h => ht.writable _ (hmem t h)
  have hiff : ∀ t, t ∈ ps.map (·.1) ↔ t ∈ ts := by
    intro t
    constructor
    · intro h
      obtain ⟨x, hx, rfl⟩ := List.mem_map.1 h
      exact hmem x hx
    · intro h
      obtain ⟨d, hd, hdt⟩ := ht.only t h
      obtain ⟨e, he⟩ := h3.complete d hd
      obtain ⟨x, hx, hxe⟩ := List.mem_map.1 he
      simp only [Prod.mk.injEq] at hxe
      have : t = x.1 := text_inj (ht.writable t h) (hw x hx) (by rw [← hdt, hxe.1])
      rw [this]
      exact List.mem_map_of_mem (f := (·.1)) hx
  have hnd : (ps.map (·.1)).Nodup := by
    have := h3.nodup
    rw [List.map_map] at this
    have e : ((fun x : Bytes × Endpoint m => x.1) ∘ fun t : Tmpl × Endpoint m => (Spec.Radix.text t.1, t.2)) =
      Spec.Radix.text ∘ (fun x : Tmpl × Endpoint m => x.1) := rfl
    rw [e, ← List.map_map, List.nodup_iff_pairwise_ne] at this
    rw [List.nodup_iff_pairwise_ne]
    exact (List.pairwise_map.1 this).imp (fun hne heq => hne (by rw [heq]))
  refine ⟨tree, ps, h1, hiff, ?_, ?_⟩
  · intro t e hte
    have hin : (Spec.Radix.text t, e) ∈ ps.map (fun t => (Spec.Radix.text t.1, t.2)) :=
      List.mem_map_of_mem (f := fun t : Tmpl × Endpoint m => (Spec.Radix.text t.1, t.2)) hte
    exact ⟨h3.methods _ _ hin, tree_allow h3 hin⟩
  · intro path params params' p
    rw [C36_match_partial {} ps hw hnd tree h2 path params params' p]
    simp only [hiff, unshadowed_congr hiff]

open Indigo.Spec.Radix in
/-- The whole router: a request whose path is an instance of a template with this method (and is not claimed by literal
sections of other templates) is passed to the handler registered for it; the values of the named variables are added
to its parameters. The methods it is told are those of the template, in some order. -/
theorem C36_routed_partial (hm : make F text env ops = some rt) (ts : List Tmpl) (ht : Templates ops ts)
    (req : Request) (hr : req' = arriving ops req) (path : Bytes) (hp : req'.Path = SLASH :: path) (t : Tmpl)
    (htt : t ∈ ts) (b : List (Bytes × Bytes)) (hi : Instance t (sections path) b)
    (hu : Unshadowed ts t (sections path)) (h : Handler m)
    (hd : ((Spec.Radix.text t, req'.Method), h) ∈ declared ops) :
    ∃ ms : List Method, ms.Perm (methodsOf ops (Spec.Radix.text t)) ∧
      rt.onRequest F req = some (h (allowing { req' with Params := { req'.Params with
        pairs := req'.Params.pairs ++ b.map (fun e => ⟨e.1, e.2⟩) } } ms), rt) := by
  subst hr
  have hb := built F text env ops rt hm
  obtain ⟨tree, ps, h1, h2, h3, h4⟩ := tree_match hm ht
  obtain ⟨x, hx, hxt⟩ := List.mem_map.1 ((h2 t).2 htt)
  obtain ⟨t', e⟩ := x
  simp only at hxt
  subst hxt
  obtain ⟨k1, ms, k2, k3⟩ := h3 t' e hx
  refine ⟨ms, k2, ?_⟩
  have e1 : rt.onRequest F req = rt.onRequest' F (arriving ops req) := by
    rw [Runtime.onRequest]; simp only [arriving_eq hb]
  rw [e1, Runtime.onRequest', h1]
  simp only
  rw [hp, (h4 path _ _ e).2 ⟨t', b, Or.inl hx, hi, hu, rfl⟩]
  simp only [Option.some.injEq]
  refine dispatch_some _ e h ?_ ms k3
  rw [Runtime.getHandler, (k1 _ _).2 hd]

open Indigo.Spec.Radix in
/-- The same with a method which is not registered for the template: an error 405 with the methods of the template. -/
theorem C36_not_allowed_partial (hm : make F text env ops = some rt) (ts : List Tmpl) (ht : Templates ops ts)
    (req : Request) (hr : req' = arriving ops req) (path : Bytes) (hp : req'.Path = SLASH :: path) (t : Tmpl)
    (htt : t ∈ ts) (b : List (Bytes × Bytes)) (hi : Instance t (sections path) b)
    (hu : Unshadowed ts t (sections path)) (hn : req'.Method ∉ methodsOf ops (Spec.Radix.text t))
    (hg : req'.Method = .HEAD → Method.GET ∉ methodsOf ops (Spec.Radix.text t)) (htr : req'.Method ≠ .TRACE) :
    ∃ (h : Handler m) (ms : List Method), ms.Perm (methodsOf ops (Spec.Radix.text t)) ∧ handlerFor F text ops Status.MethodNotAllowed = some h ∧
      rt.onRequest F req = some (h (failing (allowing { req' with Params := { req'.Params with
        pairs := req'.Params.pairs ++ b.map (fun e => ⟨e.1, e.2⟩) } } ms) (.http Status.ErrMethodNotAllowed)), rt) := by
  subst hr
  have hb := built F text env ops rt hm
  obtain ⟨tree, ps, h1, h2, h3, h4⟩ := tree_match hm ht
  obtain ⟨x, hx, hxt⟩ := List.mem_map.1 ((h2 t).2 htt)
  obtain ⟨t', e⟩ := x
  simp only at hxt
  subst hxt
  obtain ⟨k1, ms, k2, k3⟩ := h3 t' e hx
  obtain ⟨h, hh⟩ := C41_always_one F text ops Status.MethodNotAllowed
  refine ⟨h, ms, k2, hh, ?_⟩
  have hnone : ∀ mt, mt ∉ methodsOf ops (Spec.Radix.text t') → e.methodsMap mt = none := by
    intro mt hmt
    cases hc : e.methodsMap mt with
    | none => rfl
    | some x => exact absurd ((methodsOf_mem _ _).2 (List.mem_map_of_mem (f := (·.1)) ((k1 _ _).1 hc))) hmt
  have e1 : rt.onRequest F req = rt.onRequest' F (arriving ops req) := by
    rw [Runtime.onRequest]; simp only [arriving_eq hb]
  rw [e1, Runtime.onRequest', h1]
  simp only
  rw [hp, (h4 path _ _ e).2 ⟨t', b, Or.inl hx, hi, hu, rfl⟩]
  simp only [Option.some.injEq]
  rw [← hp]
  exact dispatch_none hb { arriving ops req with Params := { (arriving ops req).Params with
    pairs := (arriving ops req).Params.pairs ++ b.map (fun e => ⟨e.1, e.2⟩) } } e (hnone _ hn) (fun hx => hnone _ (hg hx)) htr ms k3 h hh

open Indigo.Spec.Radix in
/-- A path other than the root which is an instance of no template (up to precedence) is passed to the longest catcher,
or is an error 404. Values of variables can be left in the parameters. -/
theorem C36_not_found_partial (hm : make F text env ops = some rt) (ts : List Tmpl) (ht : Templates ops ts)
    (req : Request) (hr : req' = arriving ops req) (path : Bytes) (hp : req'.Path = SLASH :: path)
    (hne : path ≠ []) (hno : ∀ t ∈ ts, ∀ b, Instance t (sections path) b → ¬ Unshadowed ts t (sections path)) :
    ∃ params,
    (∃ p h, (p, h) ∈ catchers ops ∧ p <+: req'.Path ∧ (∀ c ∈ catchers ops, c.1 <+: req'.Path → c.1.length ≤ p.length) ∧
      rt.onRequest F req = some (h { req' with Params := params }, rt)) ∨
    ((∀ c ∈ catchers ops, ¬ c.1 <+: req'.Path) ∧ ∃ h, handlerFor F text ops Status.NotFound = some h ∧
      rt.onRequest F req = some (h (failing { req' with Params := params } (.http Status.ErrNotFound)), rt)) := by
  subst hr
  have hb := built F text env ops rt hm
  obtain ⟨tree, ps, h1, h2, h3, h4⟩ := tree_match hm ht
  have e1 : rt.onRequest F req = rt.onRequest' F (arriving ops req) := by
    rw [Runtime.onRequest]; simp only [arriving_eq hb]
  have hsec : sections path ≠ [] := by
    cases path with
    | nil => exact absurd rfl hne
    | cons c cs =>
      have : ∀ (l cur : Bytes), cur ≠ [] ∨ l ≠ [] → sectionsFrom cur l ≠ [] := by
        intro l
        induction l with
        | nil => intro cur h; simp at h; simp [sectionsFrom, h]
        | cons a l ih =>
          intro cur _
          rw [sectionsFrom]
          split
          · simp
          · exact ih _ (Or.inl (by simp))
      exact this _ _ (Or.inr (by simp))
  cases hmt : tree.«match» (47 :: path) (arriving ops req).Params with
  | panic =>
    simp only [Radix.Node.«match»] at hmt
    rw [if_neg (by decide)] at hmt
    simp at hmt
  | done p params =>
    refine ⟨params, ?_⟩
    cases p with
    | some e =>
      obtain ⟨t, b, k1, k2, k3, -⟩ := (h4 path _ _ e).1 hmt
      rcases k1 with k1 | ⟨rfl, -, -⟩
      · exact absurd k3 (hno t ((h2 t).1 (List.mem_map_of_mem (f := (·.1)) k1)) b k2)
      · generalize hs : sections path = ss at k2 hsec
        cases k2
        exact absurd rfl hsec
    | none =>
      have e2 : rt.onRequest F req =
          some (rt.onError' F { arriving ops req with Params := params } (.http Status.ErrNotFound)) := by
        rw [e1, Runtime.onRequest', h1]
        simp only
        rw [hp, hmt]
      rw [e2]
      simpa using notFound_outcome hb { arriving ops req with Params := params }

open Indigo.Spec.Radix in
/-- A router with variables (of the kind the code understands) is refused exactly for the reasons of C59, or if two
templates have variables with different names at the same place. -/
theorem C36_accepted_partial (F : Fold) (text : GoErr → Bytes) (env : Env m) (ops : List (Op m)) (ts : List Tmpl)
    (ht : Templates ops ts) :
    (∃ rt, make F text env ops = some rt) ↔
      WellReferenced ops ∧ ((declared ops).map (·.1)).Nodup ∧ (∀ r, (ownCatcherPaths ops r).Nodup) ∧
      ∀ t ∈ ts, ∀ t' ∈ ts, Compatible t t' := by
  have hparsed : ∀ d ∈ declared ops, ∃ t, Radix.parse d.1.1 = .ok t := by
    intro d hd
    obtain ⟨t, htt, hdt⟩ := ht.all d hd
    exact ⟨_, by rw [hdt]; exact Radix.Node.parse_text t (ht.writable t htt)⟩
  rw [← Option.isSome_iff_exists]
  have key : Sound ops → ((make F text env ops).isSome = true ↔ ∀ t ∈ ts, ∀ t' ∈ ts, Compatible t t') := by
    intro hsound
    obtain ⟨L, hL, hiff⟩ := build_isSome F text env ops hsound
    rw [make, hiff]
    have hdyn := templates_dynamic ht
    obtain ⟨ps, hps, hmem⟩ := trees L ts (by
      intro x hx
      obtain ⟨d, hd, hdp⟩ := hL.sound x.1 x.2 hx
      obtain ⟨t, htt, hdt⟩ := ht.all d hd
      exact ⟨t, htt, by rw [← hdp, hdt]⟩)
    subst hps
    have hw : ∀ t ∈ ps, Writable t.1 := fun t h => ht.writable _ (hmem t h)
    rw [C36_registration {} ps hw]
    constructor
    · intro h t h1 t' h2
      have hp := h hdyn
      have hin : ∀ t ∈ ts, ∃ x ∈ ps, x.1 = t := by
        intro t h
        obtain ⟨d, hd, hdt⟩ := ht.only t h
        obtain ⟨e, he⟩ := hL.complete d hd
        obtain ⟨x, hx, hxe⟩ := List.mem_map.1 he
        simp only [Prod.mk.injEq] at hxe
        exact ⟨x, hx, (text_inj (ht.writable t h) (hw x hx) (by rw [← hdt, hxe.1])).symm⟩
      obtain ⟨x, hx, rfl⟩ := hin t h1
      obtain ⟨y, hy, rfl⟩ := hin t' h2
      have hself : ∀ t : Tmpl, Compatible t t := by
        intro t i a b _ ha hb
        rw [ha] at hb
        simpa using hb
      have hsym : ∀ a b : Tmpl, Compatible a b → Compatible b a := by
        intro a b hab i x y h1 h2 h3
        exact (hab i y x h1.symm h3 h2).symm
      exact pairwise_forall (R := fun t t' : Tmpl × Endpoint m => Compatible t.1 t'.1) (fun a => hself a.1)
        (fun a b h => hsym _ _ h) hp x hx y hy
    · intro h _
      exact pairwise_of_forall (fun x hx y hy => h _ (hmem x hx) _ (hmem y hy))
  constructor
  · intro h
    have := build_sound F text env ops h
    exact ⟨this.refs, this.nodup, this.caught, (key this).1 h⟩
  · rintro ⟨h1, h2, h3, h4⟩
    exact (key ⟨h1, hparsed, h2, h3⟩).2 h4

/-! ### C42: TRACE -/

theorem render_allowing (req : Request) (b : Bytes) (ms : List Method) :
    renderHTTPRequest (allowing req ms) b = b ++ echo req := by
  simp only [renderHTTPRequest, requestHeaders_eq, requestURI, echo, allowing, List.append_assoc]
  cases req.Query.raw <;> simp

/-- What a router does for a request after having echoed `b`. -/
theorem request_static (hm : make F text env ops = some rt) (hs : Static ops) (req : Request) (b : Bytes) :
    Runtime.onRequest F { rt with traceBuff := b } req =
      if traced ops req = true then some (pure (traceResponse F Fields.new (b ++ echo (arriving ops req)),
          allowing (arriving ops req) (methodsOf ops (arriving ops req).Path)),
        { rt with traceBuff := b ++ echo (arriving ops req) })
      else (rt.onRequest F req).map (fun x => (x.1, { rt with traceBuff := b })) := by
  have hb := built F text env ops rt hm
  obtain ⟨R, hR, hok⟩ := hb.static (fun d hd => (parse_static _ (hs d hd)).2)
  have e1 : rt.onRequest F req = rt.onRequest' F (arriving ops req) := by
    rw [Runtime.onRequest]; simp only [arriving_eq hb]
  have e2 : Runtime.onRequest F { rt with traceBuff := b } req =
      Runtime.onRequest' F { rt with traceBuff := b } (arriving ops req) := by
    rw [Runtime.onRequest, ← arriving_eq hb]; rfl
  rw [e1, e2, Runtime.onRequest', Runtime.onRequest']
  simp only [hR]
  have := hok (arriving ops req).Path
  cases hg : R.get? (arriving ops req).Path with
  | none =>
    rw [hg] at this
    have hempty : methodsOf ops (arriving ops req).Path = [] := by
      rw [List.eq_nil_iff_forall_not_mem]
      intro mt hmt
      obtain ⟨d, hd, he⟩ := List.mem_map.1 ((methodsOf_mem _ _).1 hmt)
      exact this d hd (by rw [he])
    rw [if_neg (by simp [traced, hempty])]
    simp only [Option.map_some, Option.some.injEq]
    rw [← hR]
    exact onError_buff F rt b _ (.http Status.ErrNotFound) (fun h => absurd h.2 (by decide))
  | some e =>
    rw [hg] at this
    obtain ⟨⟨d, hd, hdp⟩, h2, h3⟩ := this
    have hne : methodsOf ops (arriving ops req).Path ≠ [] := by
      intro hh
      have : d.1.2 ∈ methodsOf ops (arriving ops req).Path :=
        (methodsOf_mem _ _).2 (by rw [← hdp]; exact List.mem_map_of_mem (f := (·.1)) hd)
      rw [hh] at this
      simp at this
    have hal : e.allow = commas ((methodsOf ops (arriving ops req).Path).map Method.toBytes) := by
      rw [h3, allow_eq, allow_methods _ _ h2]
    have hmm : ∀ mt, mt ∈ methodsOf ops (arriving ops req).Path ↔ (e.methodsMap mt).isSome = true := by
      intro mt
      rw [Option.isSome_iff_exists]
      simp only [h2, methodsOf_mem, List.mem_map]
      constructor
      · rintro ⟨⟨k, x⟩, hx, rfl⟩; exact ⟨x, hx⟩
      · rintro ⟨x, hx⟩; exact ⟨_, hx, rfl⟩
    simp only [Option.map_some]
    simp only [Runtime.dispatch]
    cases hgh : Runtime.getHandler (arriving ops req).Method e.methodsMap with
    | some h =>
      rw [if_neg]
      intro ht
      simp only [traced, decide_eq_true_eq, hmm] at ht
      rw [Runtime.getHandler, ht.1] at hgh
      cases hx : e.methodsMap .TRACE with
      | none => simp [hx] at hgh
      | some _ => simp [hx] at ht
    | none =>
      simp only
      by_cases htr : (arriving ops req).Method = .TRACE
      · have hnone : e.methodsMap .TRACE = none := by
          rw [Runtime.getHandler, htr] at hgh
          cases hx : e.methodsMap .TRACE with
          | none => rfl
          | some _ => simp [hx] at hgh
        have : traced ops req = true := by simp [traced, htr, hne, hmm, hnone]
        rw [if_pos this, Runtime.onError', if_pos ⟨htr, rfl⟩]
        simp only [hal]
        have := render_allowing (arriving ops req) b (methodsOf ops (arriving ops req).Path)
        rw [allowing] at this
        rw [this]
        rfl
      · have : ¬ traced ops req = true := by simp [traced, htr]
        rw [if_neg this, ← hR]
        exact congrArg some (onError_buff F rt b { arriving ops req with
          Env := { (arriving ops req).Env with AllowedMethods := e.allow } } (.http Status.ErrMethodNotAllowed)
          (fun h => htr h.1))

/-- What the router remembers of the requests it served. -/
private theorem serving_buff (hm : make F text env ops = some rt) (hs : Static ops) (reqs : List Request)
    (rt' : Runtime m) (h : serving F rt reqs = some rt') :
    rt' = { rt with traceBuff := (reqs.filter (traced ops)).flatMap (fun r => echo (arriving ops r)) } := by
  have : ∀ (reqs : List Request) (b : Bytes), serving F { rt with traceBuff := b } reqs = some rt' →
      rt' = { rt with traceBuff := b ++ (reqs.filter (traced ops)).flatMap (fun r => echo (arriving ops r)) } := by
    intro reqs
    induction reqs with
    | nil => intro b hb; simp [serving] at hb; simp [← hb]
    | cons r reqs ih =>
      intro b hb
      rw [serving, request_static hm hs] at hb
      by_cases ht : traced ops r = true
      · rw [if_pos ht] at hb
        rw [List.filter_cons_of_pos ht, List.flatMap_cons, ← List.append_assoc]
        exact ih _ hb
      · rw [if_neg ht] at hb
        rw [List.filter_cons_of_neg ht]
        cases hr : rt.onRequest F r with
        | none => simp [hr] at hb
        | some x => rw [hr] at hb; exact ih _ hb
  have hb : rt.traceBuff = [] := (built F text env ops rt hm).buff
  have e : { rt with traceBuff := [] } = rt := by rw [← hb]
  have := this reqs [] (by rw [e]; exact h)
  simpa using this

/-- The answer to a TRACE request is the rendering of the request, after the renderings of all earlier ones, from
whatever connection. -/
theorem C42_history (hm : make F text env ops = some rt) (hs : Static ops) (reqs : List Request) (rt' : Runtime m)
    (h : serving F rt reqs = some rt') (req : Request) (ht : traced ops req = true) :
    ∃ f req' rt'', rt'.onRequest F req = some (pure (f, req'), rt'') ∧
      f.Body = (reqs.filter (traced ops)).flatMap (fun r => echo (arriving ops r)) ++ echo (arriving ops req) := by
  rw [serving_buff hm hs reqs rt' h, request_static hm hs, if_pos ht]
  exact ⟨_, _, _, rfl, rfl⟩

/-- The first TRACE request is answered with its own rendering, whatever else was served before. -/
theorem C42_first_partial (hm : make F text env ops = some rt) (hs : Static ops) (reqs : List Request)
    (rt' : Runtime m) (h : serving F rt reqs = some rt') (hno : ∀ r ∈ reqs, traced ops r = false) (req : Request)
    (ht : traced ops req = true) :
    ∃ f req' rt'', rt'.onRequest F req = some (pure (f, req'), rt'') ∧ f.Body = echo (arriving ops req) := by
  obtain ⟨f, r', r'', h1, h2⟩ := C42_history hm hs reqs rt' h req ht
  refine ⟨f, r', r'', h1, ?_⟩
  rw [h2, List.filter_eq_nil_iff.2 (by simpa using hno)]
  rfl

/-- Other requests are answered as if no request had been served before: all theorems about fresh routers hold for
routers in use, too. -/
theorem C35_history (hm : make F text env ops = some rt) (hs : Static ops) (reqs : List Request) (rt' : Runtime m)
    (h : serving F rt reqs = some rt') (req : Request) (ht : traced ops req = false) :
    rt'.onRequest F req = (rt.onRequest F req).map (fun x => (x.1, rt')) := by
  rw [serving_buff hm hs reqs rt' h, request_static hm hs, if_neg (by simp [ht])]

/-- Serving requests never fails by itself. -/
theorem C35_no_panic (hm : make F text env ops = some rt) (hs : Static ops) (reqs : List Request) :
    ∃ rt', serving F rt reqs = some rt' := by
  have hone : ∀ req b, ∃ x, Runtime.onRequest F { rt with traceBuff := b } req = some x ∧
      ∃ b', x.2 = { rt with traceBuff := b' } := by
    intro req b
    rw [request_static hm hs]
    split
    · exact ⟨_, rfl, _, rfl⟩
    · rcases static_onRequest hm hs req with ⟨h, -⟩ | ⟨e, -, -, -, h⟩ <;> rw [h] <;> exact ⟨_, rfl, _, rfl⟩
  have : ∀ (reqs : List Request) (b : Bytes), ∃ rt', serving F { rt with traceBuff := b } reqs = some rt' := by
    intro reqs
    induction reqs with
    | nil => intro b; exact ⟨_, rfl⟩
    | cons r reqs ih =>
      intro b
      obtain ⟨x, h1, b', h2⟩ := hone r b
      obtain ⟨rt', h3⟩ := ih b'
      refine ⟨rt', ?_⟩
      rw [serving, h1]
      simp only
      rw [h2, h3]
  exact this reqs rt.traceBuff

/-! ### C57: aliases -/

/-- Requests for the source of an alias are routed as requests for its target, and remember the source; all other
requests are left alone. Sources (and prefixes of groups) are clean paths; no alias leads to another one, and no
source has two targets. -/
theorem C57_alias_partial (hm : make F text env ops = some rt) (hno : ∀ r f, Op.mutator r f ∉ ops)
    (hclean : ∀ r source target, Op.alias r source target ∈ ops → ∃ a b, prefixOf ops r = pathOf a ∧
      source = pathOf b ∧ (∀ x ∈ a, CleanPart x) ∧ (∀ x ∈ b, CleanPart x))
    (hchain : ∀ r source target r' source' target', Op.alias r source target ∈ ops →
      Op.alias r' source' target' ∈ ops → target ≠ prefixOf ops r' ++ source')
    (hunique : ∀ r source target r' source' target', Op.alias r source target ∈ ops →
      Op.alias r' source' target' ∈ ops → prefixOf ops r ++ source = prefixOf ops r' ++ source' → target = target')
    (req : Request) :
    (∀ r source target, Op.alias r source target ∈ ops → req.Path = prefixOf ops r ++ source →
      rt.runMutators req = { req with Path := target, Env := { req.Env with AliasFrom := req.Path } }) ∧
    ((∀ r source target, Op.alias r source target ∈ ops → req.Path ≠ prefixOf ops r ++ source) →
      rt.runMutators req = req) := by
  have hb := built F text env ops rt hm
  obtain ⟨l, h1, h2⟩ := mutators_aliases ops hb.refs hno
  have hjoin : ∀ r source target, Op.alias r source target ∈ ops →
      GoPath.join (prefixOf ops r) source = prefixOf ops r ++ source := by
    intro r s t h
    obtain ⟨a, b, ha, hbb, hca, hcb⟩ := hclean r s t h
    rw [ha, hbb, GoPath.join_pathOf a b hca hcb, pathOf_append]
  rw [Runtime.runMutators, hb.mutators, h1]
  constructor
  · intro r s t ho hp
    refine foldl_alias l req (prefixOf ops r ++ s) t ((h2 _ _).2 ⟨r, s, ho, (hjoin r s t ho).symm⟩) hp ?_ ?_ |>.trans ?_
    · rintro ⟨s', t'⟩ hin he
      obtain ⟨r'', s'', ho'', hs''⟩ := (h2 _ _).1 hin
      rw [hjoin _ _ _ ho''] at hs''
      exact hunique _ _ _ _ _ _ ho'' ho (by rw [← hs'']; exact he)
    · rintro ⟨s', t'⟩ hin he
      obtain ⟨r'', s'', ho'', hs''⟩ := (h2 _ _).1 hin
      rw [hjoin _ _ _ ho''] at hs''
      exact hchain _ _ _ _ _ _ ho ho'' (by rw [← hs'']; exact he.symm)
    · rw [hp]
  · intro hn
    refine foldl_alias_other l req ?_
    rintro ⟨s', t'⟩ hin he
    obtain ⟨r'', s'', ho'', hs''⟩ := (h2 _ _).1 hin
    rw [hjoin _ _ _ ho''] at hs''
    exact hn _ _ _ ho'' (by rw [← hs'']; exact he.symm)

/-- The aliases of a router itself, sources with the prefix of the router, and targets. -/
def ownAliases (ops : List (Op m)) (r : Nat) : List (Bytes × Bytes) :=
  ops.flatMap (fun
    | .alias r' source target => if r' = r then [(GoPath.join (prefixOf ops r) source, target)] else []
    | _ => [])

/-- The aliases of a router and of the groups in it: its own first, in their order, then those of its groups. -/
def aliasesIn (ops : List (Op m)) : Nat → Nat → List (Bytes × Bytes)
  | 0, _ => []
  | fuel + 1, r => ownAliases ops r ++ (kids ops r).flatMap (aliasesIn ops fuel)

/-- What one alias is to do with a request. -/
def underAlias (req : Request) (a : Bytes × Bytes) : Request :=
  if req.Path = a.1 then { req with Path := a.2, Env := { req.Env with AliasFrom := a.1 } } else req

/-- **C57 (part).** Whatever the aliases of a router are, the request is passed from one to the next: first those of the
router itself, in the order of their registration, then those of its groups. Each of them changes the path if it is its
source at that time, and nothing otherwise. Missing: sources are made clean paths, and an alias may apply to the result
of another one (`C57_unclean_violation`, `C57_chain_violation`). -/
theorem C57_in_order_partial (hm : make F text env ops = some rt) (hno : ∀ r f, Op.mutator r f ∉ ops) (req : Request) :
    rt.runMutators req = (aliasesIn ops (places ops).length 0).foldl underAlias req := by
  have hb := built F text env ops rt hm
  have own : ∀ r, ownMutators ops r = (ownAliases ops r).map (fun a => aliasMutator a.1 a.2) := by
    intro r
    unfold ownMutators ownAliases
    rw [List.map_flatMap]
    refine flatMap_congr ops (fun op hop => ?_)
    cases op with
    | mutator r f => exact absurd hop (hno r f)
    | alias r' s t => simp only; split <;> rfl
    | _ => rfl
  have all : ∀ fuel r, mutatorsIn ops fuel r = (aliasesIn ops fuel r).map (fun a => aliasMutator a.1 a.2) := by
    intro fuel
    induction fuel with
    | zero => intro r; rfl
    | succ fuel ih =>
      intro r
      simp only [mutatorsIn, aliasesIn, List.map_append, own, List.map_flatMap]
      congr 1
      exact flatMap_congr _ (fun k _ => ih k)
  rw [Runtime.runMutators, hb.mutators, all, List.foldl_map]
  rfl

end

/-! ### Witnesses -/

section
variable {rt : Runtime Id}

private def sampleReq (meth : Method) (path : Bytes) : Request := { Method := meth, Path := path }

private theorem sample_static : Static sampleOps := by
  intro d hd
  have : (declared sampleOps).map (fun d => d.1.1) = [b!"/api/users", b!"/api/users", b!"/api/v2/users", b!"/"] := rfl
  have hm : d.1.1 ∈ (declared sampleOps).map (fun d => d.1.1) := List.mem_map_of_mem (f := fun d => d.1.1) hd
  rw [this] at hm
  simp only [List.mem_cons, List.not_mem_nil, or_false] at hm
  rcases hm with h | h | h | h <;> rw [h] <;> decide

/-- The bodies of the responses of the sample router to a sequence of requests. -/
private def answers : List Request → Option (List Bytes)
  | reqs => (make sampleFold (fun _ => []) sampleEnv sampleOps).bind (go reqs)
where
  go : List Request → Runtime Id → Option (List Bytes)
    | [], _ => some []
    | req :: reqs, rt =>
      match rt.onRequest sampleFold req with
      | none => none
      | some (r, rt) => (go reqs rt).map (fun l => (Prod.fst (Id.run r)).Body :: l)

/-- C35, C38, C39, C59: routes, the order of the middlewares (65 to 69 are A to E), HEAD, trailing slashes, catchers,
errors, aliases. -/
example : answers [sampleReq .GET b!"/api/users", sampleReq .POST b!"/api/users/", sampleReq .HEAD b!"/api/v2/users",
    sampleReq .GET b!"/", sampleReq .GET b!"/static/x", sampleReq .GET b!"/api/static/img/y",
    sampleReq .GET b!"/api/x", sampleReq .GET b!"/other", sampleReq .GET b!"/api/people"] =
    some [b!"ABCDusers", b!"ABCnew user", b!"ABCEusers v2", b!"Aroot", b!"Afile", b!"ABCimage", b!"Aapi", b!"Aoops",
      b!"ABCDusers"] := by decide +kernel

/-- C35: the methods allowed for a path. -/
example : (make sampleFold (fun _ => []) sampleEnv sampleOps).bind (fun rt =>
    (rt.onRequest sampleFold (sampleReq .DELETE b!"/api/users")).map (fun r => ((Prod.fst (Id.run r.1)).Code,
      (Prod.snd (Id.run r.1)).Env.AllowedMethods))) = some (Status.MethodNotAllowed, b!"GET,POST") := by decide +kernel

/-- C42: a TRACE request the router answers itself. -/
example : traced sampleOps (sampleReq .TRACE b!"/api/users") = true := by decide +kernel

/-- The second TRACE request is answered with both requests: another client's path (and headers) are disclosed. -/
theorem C42_trace_violation :
    (make sampleFold (fun _ => []) sampleEnv sampleOps).bind (fun rt =>
      (rt.onRequest sampleFold { sampleReq .TRACE b!"/api/users" with
        Headers := { pairs := [⟨b!"Cookie", b!"secret=1"⟩] } }).bind (fun r =>
      (r.2.onRequest sampleFold (sampleReq .TRACE b!"/")).map (fun r => (Prod.fst (Id.run r.1)).Body))) =
    some (b!"TRACE /api/users HTTP/1.1\r\nCookie: secret=1\r\nContent-Length: 0\r\n\r\n" ++
      b!"TRACE / HTTP/1.1\r\nContent-Length: 0\r\n\r\n") := by decide +kernel

/-- What an alias makes of a request. -/
private def aliased (ops : List (Op Id)) (path : Bytes) : Option (Bytes × Bytes) :=
  (make sampleFold (fun _ => []) sampleEnv ops).map (fun rt =>
    ((rt.runMutators (sampleReq .GET path)).Path, (rt.runMutators (sampleReq .GET path)).Env.AliasFrom))

/-- An alias for a path with a trailing slash does not apply to that path (but to the one without the slash). -/
theorem C57_unclean_violation :
    aliased [.alias 0 b!"/a/" b!"/b"] b!"/a/" = some (b!"/a/", []) ∧
    aliased [.alias 0 b!"/a/" b!"/b"] b!"/a" = some (b!"/b", b!"/a") := by decide +kernel

/-- The aliases of a group come after those of the router it is in, also if they are registered before. -/
example : aliasesIn (m := Id) [.group 0 b!"/g", .alias 1 b!"/x" b!"/y", .alias 0 b!"/a" b!"/g/x"] 2 0 =
    [(b!"/a", b!"/g/x"), (b!"/g/x", b!"/y")] := by decide +kernel

/-- An alias to the source of a later alias leads to the target of that one. -/
theorem C57_chain_violation :
    aliased [.alias 0 b!"/a" b!"/b", .alias 0 b!"/b" b!"/c"] b!"/a" = some (b!"/c", b!"/b") := by decide +kernel

example : aliased sampleOps b!"/api/people" = some (b!"/api/users", b!"/api/people") ∧
    aliased sampleOps b!"/api/people/" = some (b!"/api/people/", []) := by decide +kernel

/-- A router with variables. -/
private def dynamicOps : List (Op Id) :=
  [.group 0 b!"/users",
   .route 1 .GET b!"" (say b!"all") [],
   .route 1 .GET b!"/{id}" (fun req => (Fields.new.bytes ((req.Params.pairs.map (·.Value)).flatten), req)) [],
   .route 1 .DELETE b!"/{id}" (say b!"gone") [],
   .route 1 .GET b!"/{id}/posts/{post}"
     (fun req => (Fields.new.bytes ((req.Params.pairs.map (fun p => p.Key ++ b!"=" ++ p.Value ++ b!";")).flatten), req)) [],
   .route 1 .GET b!"/me" (say b!"myself") []]

private theorem dynamic_made : ∃ rt, make sampleFold (fun _ => []) sampleEnv dynamicOps = some rt :=
  Option.isSome_iff_exists.1 (by decide +kernel)

open Indigo.Spec.Radix in
private theorem dynamic_templates : Templates dynamicOps
    [[.lit b!"users"], [.lit b!"users", .var b!"id"], [.lit b!"users", .var b!"id", .lit b!"posts", .var b!"post"],
     [.lit b!"users", .lit b!"me"]] := by
  have hd : (declared dynamicOps).map (fun d => d.1.1) = [b!"/users", b!"/users/{id}", b!"/users/{id}",
    b!"/users/{id}/posts/{post}", b!"/users/me"] := rfl
  constructor
  · intro t ht
    simp only [List.mem_cons, List.not_mem_nil, or_false] at ht
    rcases ht with rfl | rfl | rfl | rfl <;>
      exact ⟨by intro p hp; simp at hp; rcases hp with rfl | rfl | rfl | rfl <;> simp [Part.Valid], by simp, by simp⟩
  · intro d h
    have hm : d.1.1 ∈ (declared dynamicOps).map (fun d => d.1.1) := List.mem_map_of_mem (f := fun d => d.1.1) h
    rw [hd] at hm
    simp only [List.mem_cons, List.not_mem_nil, or_false] at hm
    rcases hm with h | h | h | h | h <;> rw [h]
    · exact ⟨[.lit b!"users"], by simp, rfl⟩
    · exact ⟨[.lit b!"users", .var b!"id"], by simp, rfl⟩
    · exact ⟨[.lit b!"users", .var b!"id"], by simp, rfl⟩
    · exact ⟨[.lit b!"users", .var b!"id", .lit b!"posts", .var b!"post"], by simp, rfl⟩
    · exact ⟨[.lit b!"users", .lit b!"me"], by simp, rfl⟩
  · intro t ht
    have : Spec.Radix.text t ∈ (declared dynamicOps).map (fun d => d.1.1) := by
      rw [hd]
      simp only [List.mem_cons, List.not_mem_nil, or_false] at ht
      rcases ht with rfl | rfl | rfl | rfl <;> decide
    obtain ⟨d, h1, h2⟩ := List.mem_map.1 this
    exact ⟨d, h1, h2⟩
  · exact ⟨[.lit b!"users", .var b!"id"], by simp, b!"id", by simp⟩

/-- C36: what it answers. -/
example : ((make sampleFold (fun _ => []) sampleEnv dynamicOps).bind (answers.go [sampleReq .GET b!"/users",
    sampleReq .GET b!"/users/42", sampleReq .DELETE b!"/users/42", sampleReq .GET b!"/users/7/posts/8",
    sampleReq .GET b!"/users/me"])) =
    some [b!"all", b!"42", b!"gone", b!"id=7;post=8;", b!"myself"] := by decide +kernel

end

end Indigo.Props
