/-
C77 Method shorthands and resources.
-/
import Verif.Model.Resource
import Verif.Props.Router

namespace Indigo.Props
open Indigo.Router Indigo.Spec.Router

variable {m : Type → Type} [Monad m]

/-- The names of the shorthands. -/
def Verb.name : Verb → Bytes
  | .Get => b!"Get" | .Head => b!"Head" | .Post => b!"Post" | .Put => b!"Put" | .Delete => b!"Delete"
  | .Connect => b!"Connect" | .Options => b!"Options" | .Trace => b!"Trace" | .Patch => b!"Patch"

/-- Letters in upper case. -/
def upperLetters (s : Bytes) : Bytes := s.map (fun c => if 97 ≤ c ∧ c ≤ 122 then c - 32 else c)

omit [Monad m] in
private theorem verb_route (v : Verb) (r : Nat) (path : Bytes) (h : Handler m) (mws : List (Middleware m)) :
    ∃ meth : Method, meth.toBytes = upperLetters (Verb.name v) ∧ verb v r path h mws = .route r meth path h mws ∧
      ∀ meth' : Method, meth'.toBytes = upperLetters (Verb.name v) → meth' = meth := by
  have uniq : ∀ (a b : Method), a.toBytes = b.toBytes → a = b := by
    intro a b; cases a <;> cases b <;> decide +kernel
  cases v <;>
    (refine ⟨_, ?_, rfl, ?_⟩
     · decide +kernel
     · intro meth' h; refine uniq _ _ (h.trans ?_); decide +kernel)

/-- **C77 (part).** What is registered by a shorthand - on the router itself or on a group - answers requests for the
path whose method is the name of the shorthand in upper case. -/
theorem C77_shorthands {F : Fold} {text : GoErr → Bytes} {env : Env m} {ops : List (Op m)} {rt : Runtime m}
    (hm : make F text env ops = some rt) (hs : Static ops) (v : Verb) (r : Nat) (path : Bytes)
    (h : Handler m) (mws : List (Middleware m)) (hop : verb v r path h mws ∈ ops) (req : Request)
    (hp : (arriving ops req).Path = UriNormalize.normalize (prefixOf ops r ++ path))
    (hmt : (arriving ops req).Method.toBytes = upperLetters (Verb.name v)) :
    rt.onRequest F req = some (wrap (around ops r ++ mws) h
      (allowing (arriving ops req) (methodsOf ops (arriving ops req).Path)), rt) := by
  obtain ⟨meth, -, h2, h3⟩ := verb_route v r path h mws
  exact C38_routes hm hs r meth path h mws (h2 ▸ hop) req hp (h3 _ hmt)

omit [Monad m] in
private theorem places_later (before : List (Op m)) : ∀ (later : List (Op m)) (k : Nat), k < (places before).length →
    (places (before ++ later))[k]? = (places before)[k]? ∧ k < (places (before ++ later)).length := by
  intro later
  induction later generalizing before with
  | nil => intro k hk; simpa using hk
  | cons op later ih =>
    intro k hk
    have h1 := places_length_snoc before op k hk
    have h2 : k < (places (before ++ [op])).length := by
      have := List.getElem?_eq_getElem hk
      rw [← h1] at this
      exact (List.getElem?_eq_some_iff.1 this).1
    have := ih (before ++ [op]) k h2
    rw [List.append_assoc, List.singleton_append] at this
    exact ⟨this.1.trans h1, this.2⟩

omit [Monad m] in
/-- A group: its prefix and the middlewares around what is registered on it. -/
private theorem group_place (before later : List (Op m)) (r : Nat) (path : Bytes) (hr : r < (places before).length) :
    let ops := before ++ .group r path :: later
    prefixOf ops (places before).length = prefixOf ops r ++ path ∧
    around ops (places before).length = around ops r ++ uses ops (places before).length := by
  intro ops
  have hp := List.getElem?_eq_getElem hr
  have hg : places (before ++ [.group r path]) = places before ++
      [⟨(places before)[r].line ++ [(places before).length], (places before)[r].pre ++ path⟩] := by
    rw [places_snoc]
    simp only [hp]
  have e : ops = (before ++ [.group r path]) ++ later := by simp [ops]
  have h1 : (places ops)[(places before).length]? =
      some ⟨(places before)[r].line ++ [(places before).length], (places before)[r].pre ++ path⟩ := by
    rw [e, (places_later _ later _ (by rw [hg]; simp)).1, hg]
    simp
  have h2 : (places ops)[r]? = some (places before)[r] := by
    rw [(places_later before _ r hr).1, hp]
  constructor
  · rw [prefixOf, prefixOf, h1, h2]; rfl
  · rw [around, around, h1, h2]; simp

/-- The middlewares given to `Use` in calls on a resource. -/
def used (calls : List (Resource.Call m)) : List (Middleware m) :=
  calls.flatMap (fun | .use mws => mws | _ => [])

omit [Monad m] in
private theorem places_calls (group : Nat) (calls : List (Resource.Call m)) (ops later : List (Op m)) :
    places (ops ++ (calls.map (Resource.call group) ++ later)) = places (ops ++ later) := by
  induction calls generalizing ops with
  | nil => rfl
  | cons c calls ih =>
    have h1 : places (ops ++ [Resource.call group c]) = places ops := by
      rw [places_snoc]
      cases c with
      | verb v => cases v <;> rfl
      | _ => rfl
    have h2 : ∀ (xs ys zs : List (Op m)), places xs = places ys → places (xs ++ zs) = places (ys ++ zs) := by
      intro xs ys zs h
      unfold places at h ⊢
      rw [List.foldl_append, List.foldl_append, h]
    have := ih (ops ++ [Resource.call group c])
    simp only [List.append_assoc, List.singleton_append] at this
    rw [List.map_cons, List.cons_append, this]
    have := h2 _ _ later h1
    simpa using this

omit [Monad m] in
private theorem uses_calls (group : Nat) (calls : List (Resource.Call m)) (k : Nat) :
    uses (calls.map (Resource.call group)) k = if k = group then used calls else [] := by
  induction calls with
  | nil => simp [uses, used]
  | cons c calls ih =>
    have h1 : uses (List.map (Resource.call group) (c :: calls)) k =
        uses [Resource.call group c] k ++ uses (calls.map (Resource.call group)) k := by simp [uses]
    rw [h1, ih]
    cases c with
    | use mws =>
      by_cases hk : k = group
      · simp [Resource.call, uses, used, hk]
      · simp [Resource.call, uses, hk, Ne.symm hk]
    | verb v => cases v <;> by_cases hk : k = group <;> simp [Resource.call, verb, uses, used, hk]
    | _ => by_cases hk : k = group <;> simp [Resource.call, uses, used, hk]

omit [Monad m] in
private theorem places_mono (a b : List (Op m)) : (places a).length ≤ (places (a ++ b)).length := by
  induction b generalizing a with
  | nil => simp
  | cons op b ih =>
    have h1 : (places a).length ≤ (places (a ++ [op])).length := by
      rw [places_snoc]; split <;> (try split) <;> simp
    have := ih (a ++ [op])
    simp only [List.append_assoc, List.singleton_append] at this
    omega

omit [Monad m] in
/-- A resource: its prefix and the middlewares around what is registered on it, in terms of the calls. -/
private theorem resource_place (before later : List (Op m)) (r : Nat) (path : Bytes) (calls : List (Resource.Call m))
    (refs : WellReferenced (before ++ Resource.make r path (places before).length calls ++ later)) :
    let group := (places before).length
    let ops := before ++ Resource.make r path group calls ++ later
    let rest := before ++ .group r path :: later
    prefixOf ops group = prefixOf rest r ++ path ∧
    around ops group = around rest r ++ (used calls ++ uses later group) := by
  intro group ops rest
  have e : ops = before ++ .group r path :: (calls.map (Resource.call group) ++ later) := by
    simp [ops, Resource.make]
  have hr : r < group := refs before _ _ e
  obtain ⟨h1, h2⟩ := group_place before (calls.map (Resource.call group) ++ later) r path hr
  rw [← e] at h1 h2
  have hp : places ops = places rest := by
    have := places_calls group calls (before ++ [.group r path]) later
    simpa [e, rest] using this
  have hb : ∀ k, group ≤ k → uses before k = [] := by
    intro k hk
    have : ∀ (xs ys : List (Op m)), before = xs ++ ys → uses ys k = [] := by
      intro xs ys
      induction ys generalizing xs with
      | nil => intro _; rfl
      | cons op ys ih =>
        intro hxy
        have h3 := ih (xs ++ [op]) (by simp [hxy])
        have h4 := refs xs op (ys ++ .group r path :: (calls.map (Resource.call group) ++ later)) (by
          show ops = _
          rw [e, hxy]; simp)
        have h5 := places_mono xs (op :: ys)
        rw [← hxy] at h5
        have h6 : uses (op :: ys) k = uses [op] k ++ uses ys k := by simp [uses]
        rw [h6, h3]
        cases op with
        | use r' mws =>
          simp only [Op.on] at h4
          have : r' ≠ k := by simp only [group] at hk; omega
          simp [uses, this]
        | _ => simp [uses]
    exact this [] before rfl
  have app : ∀ (a b : List (Op m)) k, uses (a ++ b) k = uses a k ++ uses b k := by intro a b k; simp [uses]
  have hu : ∀ k, uses ops k = if k = group then used calls ++ uses later group else uses rest k := by
    intro k
    have hg : ∀ (l : List (Op m)), uses (.group r path :: l) k = uses l k := by intro l; simp [uses]
    rw [e, app, hg, app, uses_calls]
    by_cases hk : k = group
    · subst hk; simp [hb group (Nat.le_refl _)]
    · simp [hk, rest, app, hg]
  have hline : ∀ p, (places before)[r]? = some p → ∀ k ∈ p.line, k < group := by
    intro p h k hk
    have := ((places_ok before).line r p h).2.2.1 k hk
    omega
  refine ⟨?_, ?_⟩
  · rw [h1]; simp only [prefixOf, hp]
  · rw [h2, hu group]
    simp only [if_true]
    congr 1
    have h3 : (places rest)[r]? = (places before)[r]? := (places_later before _ r hr).1
    rw [around, around, hp, h3]
    have hsome := List.getElem?_eq_getElem hr
    rw [hsome]
    simp only [Option.map_some, Option.getD_some]
    have hl := hline _ hsome
    generalize (places before)[r].line = line at hl
    induction line with
    | nil => rfl
    | cons k line ih =>
      rw [List.flatMap_cons, List.flatMap_cons, ih (fun x hx => hl x (.tail _ hx)), hu k, if_neg (Nat.ne_of_lt (hl k (.head _)))]

/-- **C77 (part).** `Resource(path)` on the router `r`: a handler registered on the resource for a method, in whatever
order handlers and middlewares are added, answers the requests with this method for the prefix of the router followed
by `path`, inside of the middlewares of the router (with those of its parents), then of the resource, then its own. The other
calls, `before` and `later`, are any; `later` may hold further `Use` of the resource. -/
theorem C77_resource {F : Fold} {text : GoErr → Bytes} {env : Env m} {rt : Runtime m}
    (before later : List (Op m)) (r : Nat) (path : Bytes) (calls : List (Resource.Call m)) :
    let group := (places before).length
    let ops := before ++ Resource.make r path group calls ++ later
    let rest := before ++ .group r path :: later
    ∀ (_ : make F text env ops = some rt) (_ : Static ops) (meth : Method) (h : Handler m) (mws : List (Middleware m))
      (_ : .route meth h mws ∈ calls ∨ ∃ v, .verb v h mws ∈ calls ∧ meth.toBytes = upperLetters (Verb.name v))
      (req : Request), (arriving ops req).Path = UriNormalize.normalize (prefixOf rest r ++ path) →
      (arriving ops req).Method = meth →
      rt.onRequest F req = some (wrap (around rest r ++ (used calls ++ uses later group) ++ mws) h
        (allowing (arriving ops req) (methodsOf ops (arriving ops req).Path)), rt) := by
  intro group ops rest hm hs meth h mws hcall req hp hmt
  have e : ops = before ++ .group r path :: (calls.map (Resource.call group) ++ later) := by
    simp [ops, Resource.make]
  obtain ⟨h1, h2⟩ := resource_place before later r path calls
    (build_sound F text env ops (Option.isSome_iff_exists.2 ⟨rt, hm⟩)).refs
  have hmem : Op.route group meth [] h mws ∈ ops := by
    rcases hcall with hc | ⟨v, hc, hv⟩
    · rw [e]; simp only [List.mem_append, List.mem_cons, List.mem_map]
      exact .inr (.inr (.inl ⟨_, hc, rfl⟩))
    · obtain ⟨meth', -, h4, h5⟩ := verb_route v group [] h mws
      rw [h5 _ hv, ← h4, e]; simp only [List.mem_append, List.mem_cons, List.mem_map]
      exact .inr (.inr (.inl ⟨_, hc, rfl⟩))
  have := C38_routes hm hs group meth [] h mws hmem req (by rw [hp, show prefixOf ops group = _ from h1]; simp [rest]) hmt
  rw [this, show around ops group = _ from h2]

/-- **C77 (part).** `Catch(pre)` on `Resource(path)`: a catcher of the prefix of the router, `path` and `pre`, inside of the same
middlewares. What a catcher does is `C39_not_registered`. -/
theorem C77_resource_catcher {F : Fold} {text : GoErr → Bytes} {env : Env m} {rt : Runtime m}
    (before later : List (Op m)) (r : Nat) (path : Bytes) (calls : List (Resource.Call m)) :
    let group := (places before).length
    let ops := before ++ Resource.make r path group calls ++ later
    let rest := before ++ .group r path :: later
    ∀ (_ : make F text env ops = some rt) (pre : Bytes) (h : Handler m) (mws : List (Middleware m)), .catch pre h mws ∈ calls →
      (GoPath.join (prefixOf rest r ++ path) pre, wrap (around rest r ++ (used calls ++ uses later group) ++ mws) h) ∈ catchers ops := by
  intro group ops rest hm pre h mws hc
  have e : ops = before ++ .group r path :: (calls.map (Resource.call group) ++ later) := by
    simp [ops, Resource.make]
  obtain ⟨h1, h2⟩ := resource_place before later r path calls
    (build_sound F text env ops (Option.isSome_iff_exists.2 ⟨rt, hm⟩)).refs
  have hmem : Op.catch group pre h mws ∈ ops := by
    rw [e]; simp only [List.mem_append, List.mem_cons, List.mem_map]
    exact .inr (.inr (.inl ⟨_, hc, rfl⟩))
  have h1' : prefixOf ops group = prefixOf rest r ++ path := h1
  have h2' : around ops group = around rest r ++ (used calls ++ uses later group) := h2
  rw [catchers, List.mem_flatMap]
  exact ⟨_, hmem, by simp only [h1', h2', List.mem_singleton]⟩

/-! Non-vacuity. -/

private def say' (s : Bytes) : Handler Id := fun req => (Fields.new.bytes s, req)
private def mark' (c : Byte) : Middleware Id := fun next req =>
  let (f, req) := next req
  ({ f with Body := c :: f.Body }, req)

private def resourceOps : List (Op Id) :=
  [.use 0 [mark' 65], .group 0 b!"/api"] ++
  Resource.make 1 b!"/users" 2 [.verb .Get (say' b!"users") [mark' 67], .use [mark' 66], .route .POST (say' b!"new") []] ++
  [verb .Delete 0 b!"/x" (say' b!"gone") []]

private def answer (meth : Method) (path : Bytes) : Option Bytes :=
  (make sampleFold (fun _ => []) sampleEnv resourceOps).bind (fun rt =>
    (rt.onRequest sampleFold { Method := meth, Path := path }).map (fun r => (Prod.fst (Id.run r.1)).Body))

example : (places [Op.use 0 [mark' 65], .group 0 b!"/api"]).length = 2 ∧
    answer .GET b!"/api/users" = some b!"ABCusers" ∧ answer .POST b!"/api/users/" = some b!"ABnew" ∧
    answer .DELETE b!"/x" = some b!"Agone" := by decide +kernel

end Indigo.Props
