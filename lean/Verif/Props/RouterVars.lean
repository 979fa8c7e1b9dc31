/-
C36 and C42 for routers with variables in their paths: HEAD, TRACE, and histories of requests.
-/
import Verif.Props.Router
import Verif.Proofs.RouterAll

namespace Indigo.Props
open Indigo.Router Indigo.Spec.Router Indigo.Spec.Radix

section
variable {m : Type → Type} [Monad m] {F : Fold} {text : GoErr → Bytes} {env : Env m} {ops : List (Op m)} {rt : Runtime m}
  {req' : Request}

/-- **C36.** HEAD requests for an instance of a template are passed to the handler of the template for GET, if it has none for HEAD. -/
theorem C36_head_partial (hm : make F text env ops = some rt) (ts : List Tmpl) (ht : Templates ops ts)
    (req : Request) (hr : req' = arriving ops req) (path : Bytes) (hp : req'.Path = SLASH :: path) (t : Tmpl)
    (htt : t ∈ ts) (b : List (Bytes × Bytes)) (hi : Instance t (sections path) b)
    (hu : Unshadowed ts t (sections path)) (hh : req'.Method = .HEAD) (hn : Method.HEAD ∉ methodsOf ops (Spec.Radix.text t))
    (h : Handler m) (hd : ((Spec.Radix.text t, Method.GET), h) ∈ declared ops) :
    ∃ ms : List Method, ms.Perm (methodsOf ops (Spec.Radix.text t)) ∧
      rt.onRequest F req = some (h (allowing { req' with Params := { req'.Params with
        pairs := req'.Params.pairs ++ b.map (fun e => ⟨e.1, e.2⟩) } } ms), rt) := by
  subst hr
  have hb := built F text env ops rt hm
  obtain ⟨tree, ps, h1, h2, h3, h4⟩ := tree_match hm ht
  obtain ⟨x, hx, hxt⟩ := List.mem_map.1 ((h2 t).2 htt)
  obtain ⟨t', e⟩ := x
  simp only at hxt
  subst hxt
  obtain ⟨k1, ms, k2, k3⟩ := h3 t' e hx
  refine ⟨ms, k2, ?_⟩
  have e1 : rt.onRequest F req = rt.onRequest' F (arriving ops req) := by
    rw [Runtime.onRequest]; simp only [arriving_eq hb]
  rw [e1, Runtime.onRequest', h1]
  simp only
  rw [hp, (h4 path _ _ e).2 ⟨t', b, Or.inl hx, hi, hu, rfl⟩]
  simp only [Option.some.injEq]
  refine dispatch_some _ e h ?_ ms k3
  have hnone : e.methodsMap .HEAD = none := by
    cases hc : e.methodsMap .HEAD with
    | none => rfl
    | some x => exact absurd ((methodsOf_mem _ _).2 (List.mem_map_of_mem (f := (·.1)) ((k1 _ _).1 hc))) hn
  simp only [Runtime.getHandler, hh, hnone, if_true, (k1 _ _).2 hd]

/-- TRACE requests for an instance of a template which is not registered for TRACE; or for the root, if it is not registered at all
(the code finds it nevertheless, see `C36_root_violation`). -/
def TracedBy (ops : List (Op m)) (ts : List Tmpl) (req : Request) : Prop :=
  (arriving ops req).Method = .TRACE ∧ ∃ path, (arriving ops req).Path = SLASH :: path ∧
    ((∃ t ∈ ts, ∃ b, Instance t (sections path) b ∧ Unshadowed ts t (sections path) ∧
      Method.TRACE ∉ methodsOf ops (Spec.Radix.text t)) ∨
     (path = [] ∧ [] ∉ ts))

theorem sections_nil {path : Bytes} (h : sections path = []) : path = [] := by
  cases path with
  | nil => rfl
  | cons c cs =>
    have : ∀ (l cur : Bytes), cur ≠ [] ∨ l ≠ [] → sectionsFrom cur l ≠ [] := by
      intro l
      induction l with
      | nil => intro cur h; simp at h; simp [sectionsFrom, h]
      | cons a l ih =>
        intro cur _
        rw [sectionsFrom]
        split
        · simp
        · exact ih _ (Or.inl (by simp))
    exact absurd h (this _ _ (Or.inr (by simp)))

theorem dispatch_trace (F : Fold) (rt : Runtime m) (b : Bytes) (req : Request) (e : Endpoint m)
    (ht : req.Method = .TRACE) (hn : e.methodsMap .TRACE = none) :
    ∃ r', Passed req r' ∧ Runtime.dispatch F { rt with traceBuff := b } req e =
      (pure (traceResponse F Fields.new (b ++ echo req), r'), { rt with traceBuff := b ++ echo req }) := by
  refine ⟨{ req with Env := { req.Env with AllowedMethods := e.allow } }, rfl, ?_⟩
  have hg : Runtime.getHandler req.Method e.methodsMap = none := by
    rw [Runtime.getHandler, ht, hn]; simp
  simp only [Runtime.dispatch, hg]
  have hr := render_allowing { req with Env := { req.Env with AllowedMethods := e.allow } } b []
  have : renderHTTPRequest { req with Env := { req.Env with AllowedMethods := e.allow } } b = b ++ echo req := hr
  rw [Runtime.onError', if_pos ⟨ht, rfl⟩]
  simp only [this]

theorem dispatch_other (F : Fold) (rt : Runtime m) (b : Bytes) (req : Request) (e : Endpoint m)
    (h : req.Method = .TRACE → (e.methodsMap .TRACE).isSome = true) :
    Runtime.dispatch F { rt with traceBuff := b } req e = ((rt.dispatch F req e).1, { rt with traceBuff := b }) := by
  simp only [Runtime.dispatch]
  split
  · rename_i hg
    refine onError_buff F rt b { req with Env := { req.Env with AllowedMethods := e.allow } } _ ?_
    rintro ⟨ht, -⟩
    have ht : req.Method = .TRACE := ht
    have := h ht
    simp only [Runtime.getHandler, ht] at hg
    cases hx : e.methodsMap .TRACE with
    | none => simp [hx] at this
    | some _ => simp [hx] at hg
  · rfl

/-- What a router with variables does for a request after having echoed `b`. -/
theorem request_vars (hm : make F text env ops = some rt) {ts : List Tmpl} (ht : Templates ops ts) (req : Request)
    (b : Bytes) :
    (TracedBy ops ts req → ∃ r', Passed (arriving ops req) r' ∧ Runtime.onRequest F { rt with traceBuff := b } req =
      some (pure (traceResponse F Fields.new (b ++ echo (arriving ops req)), r'),
        { rt with traceBuff := b ++ echo (arriving ops req) })) ∧
    (¬ TracedBy ops ts req → Runtime.onRequest F { rt with traceBuff := b } req =
      (rt.onRequest F req).map (fun x => (x.1, { rt with traceBuff := b }))) := by
  have hb := built F text env ops rt hm
  obtain ⟨tree, ps, h1, h2, h3, h4⟩ := tree_match hm ht
  have e1 : rt.onRequest F req = rt.onRequest' F (arriving ops req) := by
    rw [Runtime.onRequest]; simp only [arriving_eq hb]
  have e2 : Runtime.onRequest F { rt with traceBuff := b } req =
      Runtime.onRequest' F { rt with traceBuff := b } (arriving ops req) := by
    rw [Runtime.onRequest, ← arriving_eq hb]; rfl
  have none_of : ∀ t e, (t, e) ∈ ps → Method.TRACE ∉ methodsOf ops (Spec.Radix.text t) → e.methodsMap .TRACE = none := by
    intro t e hte hn
    cases hc : e.methodsMap .TRACE with
    | none => rfl
    | some x => exact absurd ((methodsOf_mem _ _).2 (List.mem_map_of_mem (f := (·.1)) (((h3 t e hte).1 _ _).1 hc))) hn
  have some_of : ∀ t e, (t, e) ∈ ps → Method.TRACE ∈ methodsOf ops (Spec.Radix.text t) → (e.methodsMap .TRACE).isSome = true := by
    intro t e hte hn
    obtain ⟨⟨k, x⟩, hd, hk⟩ := List.mem_map.1 ((methodsOf_mem _ _).1 hn)
    simp only at hk
    subst hk
    rw [((h3 t e hte).1 _ _).2 hd]
    rfl
  constructor
  · rintro ⟨hT, path, hp, hcase⟩
    have key : ∃ e params', tree.«match» (47 :: path) (arriving ops req).Params = .done (some e) params' ∧ e.methodsMap .TRACE = none := by
      rcases hcase with ⟨t, htt, bs, hi, hu, hn⟩ | ⟨rfl, hroot⟩
      · obtain ⟨⟨t', e⟩, hx, hxt⟩ := List.mem_map.1 ((h2 t).2 htt)
        simp only at hxt
        subst hxt
        exact ⟨e, _, (h4 path _ _ e).2 ⟨t', bs, Or.inl hx, hi, hu, rfl⟩, none_of t' e hx hn⟩
      · exact ⟨{}, _, (h4 [] _ _ {}).2 ⟨[], [], Or.inr ⟨rfl, rfl, hroot⟩, Instance.nil,
          fun i n s h => by simp at h, rfl⟩, rfl⟩
    obtain ⟨e, params', hmt, hnone⟩ := key
    obtain ⟨r', hpass, hd⟩ := dispatch_trace F rt b { arriving ops req with Params := params' } e hT hnone
    refine ⟨r', by rw [hpass]; rfl, ?_⟩
    rw [e2, Runtime.onRequest']
    simp only [h1]
    rw [hp, hmt]
    simp only
    rw [← h1, ← hp]
    exact congrArg some hd
  · intro hno
    rw [e1, e2, Runtime.onRequest', Runtime.onRequest']
    simp only [h1]
    cases hmt : tree.«match» (arriving ops req).Path (arriving ops req).Params with
    | panic => rfl
    | done p params =>
      cases p with
      | none =>
        simp only [Option.map_some, Option.some.injEq]
        rw [← h1]
        exact onError_buff F rt b _ (.http Status.ErrNotFound) (fun h => absurd h.2 (by decide))
      | some e =>
        simp only [Option.map_some, Option.some.injEq]
        rw [← h1]
        refine dispatch_other F rt b { arriving ops req with Params := params } e ?_
        intro hT
        have hT : (arriving ops req).Method = .TRACE := hT
        cases hpath : (arriving ops req).Path with
        | nil => rw [hpath] at hmt; simp [Radix.Node.«match»] at hmt
        | cons c path =>
          rw [hpath] at hmt
          have hc : c = SLASH := by
            by_cases hc : c = SLASH
            · exact hc
            · simp [Radix.Node.«match», hc] at hmt
          subst hc
          obtain ⟨t, bs, k1, k2, k3, -⟩ := (h4 path _ _ e).1 hmt
          rcases k1 with k1 | ⟨rfl, -, hroot⟩
          · by_cases hn : Method.TRACE ∈ methodsOf ops (Spec.Radix.text t)
            · exact some_of t e k1 hn
            · exact absurd ⟨hT, path, hpath, Or.inl ⟨t, (h2 t).1 (List.mem_map_of_mem (f := (·.1)) k1), bs, k2, k3, hn⟩⟩ hno
          · have : sections path = [] := by
              generalize sections path = ss at k2
              cases k2; rfl
            exact absurd ⟨hT, path, hpath, Or.inr ⟨sections_nil this, hroot⟩⟩ hno

open Classical in
private theorem serving_vars (hm : make F text env ops = some rt) {ts : List Tmpl} (ht : Templates ops ts) (reqs : List Request)
    (rt' : Runtime m) (h : serving F rt reqs = some rt') :
    rt' = { rt with traceBuff := (reqs.filter (fun r => decide (TracedBy ops ts r))).flatMap (fun r => echo (arriving ops r)) } := by
  have : ∀ (reqs : List Request) (b : Bytes), serving F { rt with traceBuff := b } reqs = some rt' →
      rt' = { rt with traceBuff := b ++ (reqs.filter (fun r => decide (TracedBy ops ts r))).flatMap (fun r => echo (arriving ops r)) } := by
    intro reqs
    induction reqs with
    | nil => intro b hb; simp [serving] at hb; simp [← hb]
    | cons r reqs ih =>
      intro b hb
      rw [serving] at hb
      by_cases htr : TracedBy ops ts r
      · obtain ⟨r', -, he⟩ := (request_vars hm ht r b).1 htr
        rw [he] at hb
        rw [List.filter_cons_of_pos (by simpa using htr), List.flatMap_cons, ← List.append_assoc]
        exact ih _ hb
      · rw [(request_vars hm ht r b).2 htr] at hb
        rw [List.filter_cons_of_neg (by simpa using htr)]
        cases hr : rt.onRequest F r with
        | none => simp [hr] at hb
        | some x => rw [hr] at hb; exact ih _ hb
  have hb : rt.traceBuff = [] := (built F text env ops rt hm).buff
  have e : { rt with traceBuff := [] } = rt := by rw [← hb]
  have := this reqs [] (by rw [e]; exact h)
  simpa using this

open Classical in
/-- **C42**, for routers with variables: the answer to a TRACE request is the rendering of the request, after the renderings of all
earlier ones, from whatever connection. -/
theorem C42_variables_history (hm : make F text env ops = some rt) (ts : List Tmpl) (ht : Templates ops ts) (reqs : List Request)
    (rt' : Runtime m) (h : serving F rt reqs = some rt') (req : Request) (htr : TracedBy ops ts req) :
    ∃ f req' rt'', rt'.onRequest F req = some (pure (f, req'), rt'') ∧
      f.Body = (reqs.filter (fun r => decide (TracedBy ops ts r))).flatMap (fun r => echo (arriving ops r)) ++ echo (arriving ops req) := by
  rw [serving_vars hm ht reqs rt' h]
  obtain ⟨r', -, he⟩ := (request_vars hm ht req _).1 htr
  exact ⟨_, _, _, he, rfl⟩

/-- **C42**, for routers with variables: the first TRACE request is answered with its own rendering, whatever else was served before. -/
theorem C42_variables_first_partial (hm : make F text env ops = some rt) (ts : List Tmpl) (ht : Templates ops ts) (reqs : List Request)
    (rt' : Runtime m) (h : serving F rt reqs = some rt') (hno : ∀ r ∈ reqs, ¬ TracedBy ops ts r) (req : Request)
    (htr : TracedBy ops ts req) :
    ∃ f req' rt'', rt'.onRequest F req = some (pure (f, req'), rt'') ∧ f.Body = echo (arriving ops req) := by
  classical
  obtain ⟨f, r', r'', h1, h2⟩ := C42_variables_history hm ts ht reqs rt' h req htr
  refine ⟨f, r', r'', h1, ?_⟩
  rw [h2, List.filter_eq_nil_iff.2 (by simpa using hno)]
  rfl

/-- **C36.** Other requests are answered as if no request had been served before: the theorems about fresh routers with variables hold
for routers in use, too. -/
theorem C36_history_partial (hm : make F text env ops = some rt) (ts : List Tmpl) (ht : Templates ops ts) (reqs : List Request)
    (rt' : Runtime m) (h : serving F rt reqs = some rt') (req : Request) (htr : ¬ TracedBy ops ts req) :
    rt'.onRequest F req = (rt.onRequest F req).map (fun x => (x.1, rt')) := by
  classical
  rw [serving_vars hm ht reqs rt' h]
  exact (request_vars hm ht req _).2 htr

end

/-! ### An instance -/

/-- A router with a variable: GET and DELETE of users. -/
private def usersOps : List (Op Id) :=
  [.route 0 .GET b!"/users/{id}" (fun req => (Fields.new.bytes ((req.Params.pairs.map (·.Value)).flatten), req)) [],
   .route 0 .DELETE b!"/users/{id}" (fun req => (Fields.new.code 204, req)) []]

private theorem users_templates : Templates usersOps [[.lit b!"users", .var b!"id"]] := by
  have hd : (declared usersOps).map (fun d => d.1.1) = [b!"/users/{id}", b!"/users/{id}"] := rfl
  constructor
  · intro t ht
    simp only [List.mem_singleton] at ht
    subst ht
    exact ⟨by intro p hp; simp at hp; rcases hp with rfl | rfl <;> simp [Part.Valid], by simp, by simp⟩
  · intro d h
    have hm : d.1.1 ∈ (declared usersOps).map (fun d => d.1.1) := List.mem_map_of_mem (f := fun d => d.1.1) h
    rw [hd] at hm
    simp only [List.mem_cons, List.not_mem_nil, or_false, or_self] at hm
    exact ⟨_, List.mem_singleton_self _, by rw [hm]; rfl⟩
  · intro t ht
    have : Spec.Radix.text t ∈ (declared usersOps).map (fun d => d.1.1) := by
      rw [hd]
      simp only [List.mem_singleton] at ht
      subst ht
      decide
    obtain ⟨d, h1, h2⟩ := List.mem_map.1 this
    exact ⟨d, h1, h2⟩
  · exact ⟨_, List.mem_singleton_self _, b!"id", by simp⟩

/-- It can be built; TRACE requests for a user and for the root (although it is not registered) are echoed, GET requests and
TRACE requests for other paths are not; and a HEAD request is answered by the handler for GET. -/
example : (∃ rt, make sampleFold (fun _ => []) sampleEnv usersOps = some rt) ∧
    TracedBy usersOps [[.lit b!"users", .var b!"id"]] { Method := .TRACE, Path := b!"/users/42" } ∧
    TracedBy usersOps [[.lit b!"users", .var b!"id"]] { Method := .TRACE, Path := b!"/" } ∧
    ¬ TracedBy usersOps [[.lit b!"users", .var b!"id"]] { Method := .GET, Path := b!"/users/42" } ∧
    ((make sampleFold (fun _ => []) sampleEnv usersOps).bind (fun rt =>
      (rt.onRequest sampleFold { Method := .HEAD, Path := b!"/users/42" }).map (fun r => (Prod.fst (Id.run r.1)).Body))) =
      some b!"42" := by
  refine ⟨Option.isSome_iff_exists.1 (by decide +kernel), ⟨rfl, b!"users/42", rfl, Or.inl ⟨_, List.mem_singleton_self _, _,
    .lit (.var (by simp) (by simp) .nil), ?_, by decide⟩⟩, ⟨rfl, [], rfl, Or.inr ⟨rfl, by simp⟩⟩, fun h => ?_, by decide +kernel⟩
  · intro i n s _ _ t' ht' hpre
    simp only [List.mem_singleton] at ht'
    subst ht'
    match i with
    | 0 => simp_all
    | 1 => simp [List.prefix_iff_eq_take] at hpre
    | i + 2 => simp_all
  · exact absurd h.1 (by decide)

end Indigo.Props
