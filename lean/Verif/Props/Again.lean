/-
C92: a router which is initialized several times, as when it is given to several virtual hosts.
-/
import Verif.Proofs.Again
import Verif.Props.Router
import Verif.Props.Virtual

namespace Indigo.Props
open Indigo.Router Indigo.Router.Again Indigo.Spec.Router Indigo.Spec.Virtual
variable {m : Type → Type} [Monad m]

/-! In the following `⟨w, [], cap⟩` is a router on which some calls have been made, before it is initialized; `cap` is the capacity of
its slice of catchers. -/

/-- **C92.** The first `Initialize` returns the router described by C35 to C43 and C59. -/
theorem C92_first (grow : Nat → Nat → Nat) (F : Fold) (text : GoErr → Bytes) (env : Env m) (ops : List (Op m)) (cap : Nat) :
    make F text env ops = (run (newWorld F text) ops).bind (fun w =>
      (initialized grow env ⟨w, [], cap⟩).map (fun r => r.1.runtime r.2)) := by
  unfold make
  cases h : run (newWorld F text) ops with
  | none => rfl
  | some w => exact (first grow env (run_inv (newWorld_empty F text) ops w h) cap).symm

omit [Monad m] in
private theorem times_two {grow : Nat → Nat → Nat} {env : Env m} {l : Live m} (h : times grow env l 2 = none) :
    ∀ n, 2 ≤ n → times grow env l n = none := by
  intro n
  induction n with
  | zero => omega
  | succ n ih =>
    intro hn
    by_cases e : n = 1
    · subst e; exact h
    · rw [times, ih (by omega)]

/-- **C92 (violation).** Whenever a group of the router has a route, the router can be initialized once only: the second
`Initialize` panics. So it cannot be given to two virtual hosts. -/
theorem C92_groups_violation (grow : Nat → Nat → Nat) {F : Fold} {text : GoErr → Bytes} (env : Env m) {ops : List (Op m)} {w : World m}
    (hw : run (newWorld F text) ops = some w) (cap r : Nat) (hr : r ≠ 0) {meth : Method} {path : Bytes} {h : Handler m}
    {mws : List (Middleware m)} (hop : .route r meth path h mws ∈ ops) :
    times grow env ⟨w, [], cap⟩ 2 = none ∧ ∀ names, 2 ≤ names.length → hosts grow env ⟨w, [], cap⟩ names = none := by
  have hi := run_inv (newWorld_empty F text) ops w hw
  have h2 : times grow env ⟨w, [], cap⟩ 2 = none := by
    simp only [times]
    cases h1 : initialized grow env ⟨w, [], cap⟩ with
    | none => rfl
    | some p =>
      obtain ⟨hd, l⟩ := p
      have := second_fails grow env hi [] cap r hr (hi.refs _ hop)
        (d := ((UriNormalize.normalize (prefixOf ops r ++ path), meth), wrap mws h)) ?_ h1
      · simp only [this]
      · unfold own
        rw [List.mem_flatMap]
        exact ⟨_, hop, by simp [Op.on, routeItems]⟩
  refine ⟨h2, fun names hn => ?_⟩
  rw [hosts, times_two h2 _ hn]; rfl

/-- The router after `k` further calls of `Use` with all its middlewares. -/
def again (ops : List (Op m)) (k : Nat) : List (Op m) := ops ++ List.replicate k (.use 0 (uses ops 0))

/-- The router without groups, with its middlewares `n` times over. -/
private def one (env : Env m) (root : Rec m) (errs : GoMap Status.Code (Handler m)) (n : Nat) (t : Table m) : Runtime m where
  mutators := root.mutators
  catchers := env.sort (wrapCatchers root.catchers (rep root.middlewares n))
  table := t
  errHandlers := wrapErrs errs (rep root.middlewares n)

/-- **C92.** Without groups: a router which is initialized `n` times. The router returned by the call number `k` (from 0) has its routes
inside of the middlewares of the root `k + 1` times over; its catchers and its handlers of errors are inside of them `n` times over,
as it shares them with all the others. (`rts k` is the router with the middlewares added `k` times more. Catchers with prefixes of the
same length may come in another order.) -/
theorem C92_no_groups (grow : Nat → Nat → Nat) {F : Fold} {text : GoErr → Bytes} {env : Env m} {ops : List (Op m)} {w : World m}
    (hw : run (newWorld F text) ops = some w) (hg : ∀ op ∈ ops, ∀ r p, op ≠ .group r p) (cap : Nat)
    (hcap : ∀ root ∈ w.routers, root.catchers.length ≤ cap) (n : Nat) (rts : Nat → Runtime m)
    (hrts : ∀ k < n, make F text env (again ops k) = some (rts k)) :
    ∃ hs l, times grow env ⟨w, [], cap⟩ n = some (hs, l) ∧ hs.length = n ∧
      ∀ (k : Nat) h, hs[k]? = some h → ∃ cs, cs.Perm (rts (n - 1)).catchers ∧ cs.Pairwise (fun a b => a.Prefix.length ≥ b.Prefix.length) ∧
        h.runtime l = { rts k with catchers := cs, errHandlers := (rts (n - 1)).errHandlers } := by
  have hi := run_inv (newWorld_empty F text) ops w hw
  obtain ⟨root, e1, e2, e3⟩ := noGroups_root hi hg
  obtain ⟨routers, errs⟩ := w
  simp only at e1
  subst e1
  -- the router with more middlewares
  have key : ∀ k < n, ∃ t, tableOf env (wrapped root.registrar (rep root.middlewares (k + 1))) = some t ∧
      rts k = one env root errs (k + 1) t := by
    intro k hk
    have := hrts k hk
    rw [make, again, run_append, hw, Option.bind_some, run_uses, Option.bind_some, init_one] at this
    · simp only [← e3] at this
      cases ht : tableOf env (wrapped root.registrar (root.middlewares ++ rep root.middlewares k)) with
      | none => rw [ht] at this; simp at this
      | some t =>
        rw [ht] at this
        simp only [Option.map_some, Option.some.injEq] at this
        exact ⟨t, ht, this.symm⟩
    · exact e2
  have : ∃ tables : Nat → Table m, ∀ k < n, tableOf env (wrapped root.registrar (rep root.middlewares (k + 1))) = some (tables k) ∧
      rts k = one env root errs (k + 1) (tables k) := by
    refine ⟨fun k => (rts k).table, fun k hk => ?_⟩
    obtain ⟨t, h1, h2⟩ := key k hk
    have e : (rts k).table = t := by rw [h2]; rfl
    simp only [e]
    exact ⟨h1, h2⟩
  obtain ⟨tables, ht⟩ := this
  obtain ⟨l, h1, h2⟩ := after_times grow env (errs := errs) e2 cap (hcap root (by simp)) tables n (fun k hk => (ht k hk).1)
  refine ⟨_, l, h1, by simp, ?_⟩
  intro k h hk
  rw [List.getElem?_map] at hk
  have hkn : k < n := by
    rcases Nat.lt_or_ge k n with h | h
    · exact h
    · rw [List.getElem?_eq_none (by simpa using h)] at hk; simp at hk
  rw [List.getElem?_range hkn] at hk
  simp only [Option.map_some, Option.some.injEq] at hk
  subst hk
  obtain ⟨cs, c1, c2, c3⟩ := after_runtime h2 (tables k)
  have hlast := (ht (n - 1) (by omega)).2
  rw [Nat.sub_add_cancel (by omega : 1 ≤ n)] at hlast
  refine ⟨cs, ?_, c2 (by omega), ?_⟩
  · rw [hlast]; exact c1.trans (env.sort_perm _).symm
  · rw [c3, hlast, (ht k hkn).2]; rfl

private theorem again_nil {ops : List (Op m)} (F : Fold) (text : GoErr → Bytes) (env : Env m) {w : World m}
    (hw : run (newWorld F text) ops = some w) (hg : ∀ op ∈ ops, ∀ r p, op ≠ .group r p) (hu : uses ops 0 = []) (k : Nat) :
    make F text env (again ops k) = make F text env ops := by
  have hi := run_inv (newWorld_empty F text) ops w hw
  obtain ⟨root, e1, e2, e3⟩ := noGroups_root hi hg
  obtain ⟨routers, errs⟩ := w
  simp only at e1
  subst e1
  have hrep : rep (m := m) [] k = [] := by induction k with
    | zero => rfl
    | succ k ih => simp [rep, ih]
  rw [make, again, run_append, hw, Option.bind_some, run_uses, hu, hrep, make, hw, List.append_nil]

/-- **C92 (part).** A router without groups and without middlewares of its own may be initialized any number of times: all routers
returned answer every request, and every error, as if it had been initialized once. Missing: groups (`C92_groups_violation`) and
middlewares (`C92_no_groups`, `C92_middlewares_violation`). -/
theorem C92_same_partial (grow : Nat → Nat → Nat) {F : Fold} {text : GoErr → Bytes} {env : Env m} {ops : List (Op m)} {w : World m}
    (hw : run (newWorld F text) ops = some w) (hg : ∀ op ∈ ops, ∀ r p, op ≠ .group r p) (hu : uses ops 0 = []) (cap : Nat)
    (hcap : ∀ root ∈ w.routers, root.catchers.length ≤ cap) {rt : Runtime m} (hm : make F text env ops = some rt) (n : Nat) :
    ∃ hs l, times grow env ⟨w, [], cap⟩ n = some (hs, l) ∧ hs.length = n ∧
      ∀ h ∈ hs, ∀ req, ((h.runtime l).onRequest F req).map Prod.fst = (rt.onRequest F req).map Prod.fst ∧
        ∀ err, ((h.runtime l).onError F req err).1 = (rt.onError F req err).1 := by
  obtain ⟨hs, l, h1, h2, h3⟩ := C92_no_groups grow hw hg cap hcap n (fun _ => rt)
    (fun k _ => by rw [again_nil F text env hw hg hu]; exact hm)
  refine ⟨hs, l, h1, h2, ?_⟩
  intro h hmem
  obtain ⟨k, hk⟩ := List.getElem?_of_mem hmem
  obtain ⟨cs, c1, c2, c3⟩ := h3 k h hk
  -- the prefixes of the catchers are distinct
  have hi := run_inv (newWorld_empty F text) ops w hw
  obtain ⟨root, e1, e2, e3⟩ := noGroups_root hi hg
  have hrt : rt.catchers = env.sort (wrapCatchers root.catchers root.middlewares) := by
    obtain ⟨routers, errs⟩ := w
    simp only at e1
    subst e1
    rw [make, hw, Option.bind_some, init_one env root errs e2] at hm
    cases ht : tableOf env (wrapped root.registrar root.middlewares) with
    | none => rw [ht] at hm; simp at hm
    | some t =>
      rw [ht] at hm
      simp only [Option.map_some, Option.some.injEq] at hm
      rw [← hm]
  have hnodup : (cs.map (·.Prefix)).Nodup := by
    have hp : (cs.map (·.Prefix)).Perm (root.catchers.map (·.Prefix)) := by
      refine (c1.map _).trans ?_
      rw [hrt]
      refine ((env.sort_perm _).map _).trans ?_
      rw [wrapCatchers, List.map_map]
      exact List.Perm.refl _
    refine hp.symm.nodup ?_
    have hr := (hi.recs 0 root (by rw [e1]; rfl)).catchers
    have := hi.caught 0
    rw [← hr, List.map_map] at this
    exact this
  have hf : ∀ path : Bytes, cs.find? (fun c => c.Prefix.isPrefixOf path) = rt.catchers.find? (fun c => c.Prefix.isPrefixOf path) :=
    find_sorted c1 c2 (by rw [hrt]; exact env.sort_sorted _) hnodup
  intro req
  rw [c3]
  exact ⟨onRequest_find F rt cs hf req, fun err => onError_find F rt cs hf _ err⟩

private theorem zip_registered {α : Type} (names : List Bytes) (hs : List α) (hl : hs.length = names.length) (ha : ∀ n ∈ names, ¬ IsAny n) :
    hostsRegistered (List.zipWith Virtual.Op.host names hs) = names.zip hs := by
  induction names generalizing hs with
  | nil => rfl
  | cons n names ih =>
    cases hs with
    | nil => simp at hl
    | cons h hs =>
      have := ih hs (by simpa using hl) (fun n hn => ha n (by simp [hn]))
      have hn := ha n (by simp)
      simp only [List.zipWith_cons_cons, hostsRegistered, List.filterMap_cons, hn, if_false, List.zip_cons_cons]
      rw [← this]; rfl

private theorem split_first (v : Bytes) : ∀ (l : List (Bytes × α)), (∃ e ∈ l, SameHost e.1 v) →
    ∃ before e rest, l = before ++ e :: rest ∧ SameHost e.1 v ∧ ∀ x ∈ before, ¬ SameHost x.1 v := by
  intro l
  induction l with
  | nil => rintro ⟨e, he, -⟩; simp at he
  | cons x l ih =>
    rintro ⟨e, he, hs⟩
    by_cases hx : SameHost x.1 v
    · exact ⟨[], x, l, rfl, hx, by simp⟩
    · rcases List.mem_cons.1 he with rfl | he
      · exact absurd hs hx
      · obtain ⟨b, y, r, h1, h2, h3⟩ := ih ⟨e, he, hs⟩
        refine ⟨x :: b, y, r, by rw [h1]; rfl, h2, ?_⟩
        intro z hz
        rcases List.mem_cons.1 hz with rfl | hz
        · exact hx
        · exact h3 z hz

/-- **C92 (part).** Such a router may be given to any number of virtual hosts: a request for any of them is answered (errors too) as the
router alone answers it. The hosts are restricted as in C44. -/
theorem C92_hosts_partial (grow : Nat → Nat → Nat) {F : Fold} {text : GoErr → Bytes} {env : Env m} {ops : List (Op m)} {w : World m}
    (hw : run (newWorld F text) ops = some w) (hg : ∀ op ∈ ops, ∀ r p, op ≠ .group r p) (hu : uses ops 0 = []) (cap : Nat)
    (hcap : ∀ root ∈ w.routers, root.catchers.length ≤ cap) {rt : Runtime m} (hm : make F text env ops = some rt)
    (panicked : m (Fields × Request)) (names : List Bytes) (hany : ∀ n ∈ names, ¬ IsAny n) (hchars : ∀ n ∈ names, ∀ c ∈ n, HostChar c) :
    ∃ vr, hosts grow env ⟨w, [], cap⟩ names = some vr ∧
      ∀ (req : Request) (v : Bytes), (∀ p ∈ req.Headers.pairs, ∀ c ∈ p.Key, HostChar c) → hostsOf req = [v] → (∀ c ∈ v, HostChar c) →
        bare v = v → (∃ n ∈ names, SameHost n v) → ServedBy F (Router.impl F panicked) vr req rt := by
  obtain ⟨hs, l, h1, h2, h3⟩ := C92_same_partial grow hw hg hu cap hcap hm names.length
  refine ⟨_, by rw [hosts, h1]; rfl, ?_⟩
  intro req v hk hv hvc hb ⟨n, hn, hsame⟩
  have hreg := zip_registered names hs h2 hany
  have hex : ∃ e ∈ names.zip hs, SameHost e.1 v := by
    obtain ⟨i, hi, e⟩ := List.getElem_of_mem hn
    have hi' : i < hs.length := by omega
    refine ⟨(names[i], hs[i]), ?_, by rw [e]; exact hsame⟩
    rw [List.mem_iff_getElem]
    exact ⟨i, by simp; omega, by simp⟩
  obtain ⟨before, ⟨h, hd⟩, rest, e1, e2, e3⟩ := split_first v _ hex
  have hmem : (h, hd) ∈ names.zip hs := by rw [e1]; simp
  have hplain : Plain req (List.zipWith Virtual.Op.host names hs) := by
    refine ⟨hk, ?_, ?_⟩
    · intro v' hv'; rw [hv] at hv'; simp at hv'; rw [hv']; exact hvc
    · intro e he
      rw [hreg] at he
      exact hchars e.1 (List.of_mem_zip he).1
  obtain ⟨past, ⟨st, hst, s1, s2⟩, hpast⟩ := C44_selected_partial F (Router.impl F panicked) (fun h => h.runtime l)
    (List.zipWith Virtual.Op.host names hs) [] req v before rest h hd hplain hv hb (by rw [hreg, e1]) e2 e3
  have : past = [] := by simpa using hpast (by intro e he; simp at he)
  subst this
  have hsm := h3 hd (List.of_mem_zip hmem).2
  refine ⟨st, hst, ?_, ?_⟩
  · refine Eq.trans s1 ?_
    have := (hsm { req with Headers := st }).1
    simp only [Spec.Virtual.after, List.foldl_nil, Router.impl]
    cases ha : (hd.runtime l).onRequest F { req with Headers := st } <;> cases hb : rt.onRequest F { req with Headers := st } <;>
      simp [ha, hb] at this ⊢
    exact this
  · intro err
    exact (s2 err).trans ((hsm { req with Headers := st }).2 err)

/-! ### Samples and violations -/

private def say (s : Bytes) : Handler Id := fun req => (Fields.new.bytes s, req)
private def mark (c : Byte) : Middleware Id := fun next req =>
  let (f, req) := next req
  ({ f with Body := c :: f.Body }, req)

/-- Go's policy, roughly. -/
private def doubled (old need : Nat) : Nat := if need > 2 * old then need else 2 * old

private def plainOps : List (Op Id) :=
  [.route 0 .GET b!"/" (say b!"root") [], .catch 0 b!"/a" (say b!"caught a") [], .catch 0 b!"/b" (say b!"caught b") [mark 66],
   .routeError 0 (say b!"error") []]

private def groupOps : List (Op Id) := plainOps ++ [.group 0 b!"/g", .route 1 .GET b!"/x" (say b!"x") []]

private def usingOps : List (Op Id) := plainOps ++ [.use 0 [mark 65]]

private def world (ops : List (Op Id)) : World Id := (run (newWorld sampleFold (fun _ => [])) ops).getD ⟨[], []⟩

private def hostReq (host path : Bytes) : Request :=
  { Method := .GET, Path := path, Headers := { pairs := [⟨b!"Host", host⟩] } }

/-- The answers of a router given to `example.com` and `example.org`. -/
private def answers (ops : List (Op Id)) (reqs : List Request) : Option (List Bytes) :=
  (hosts doubled sampleEnv ⟨world ops, [], 2⟩ [b!"example.com", b!"www.example.org"]).map fun vr =>
    reqs.map fun req => (Prod.fst (Id.run (Virtual.onRequest sampleFold (Router.impl (m := Id) sampleFold (Fields.new, req)) vr req).1)).Body

example : answers plainOps [hostReq b!"example.com" b!"/", hostReq b!"EXAMPLE.org" b!"/", hostReq b!"example.org" b!"/b/c",
    hostReq b!"example.org" b!"/c"] = some [b!"root", b!"root", b!"Bcaught b", b!"error"] := by decide +kernel

example : (run (newWorld sampleFold (fun _ => [])) plainOps).isSome ∧ (make sampleFold (fun _ => []) sampleEnv plainOps).isSome ∧
    uses plainOps 0 = [] ∧ (∀ root ∈ (world plainOps).routers, root.catchers.length ≤ 2) ∧
    ¬ IsAny b!"example.com" ∧ SameHost b!"www.example.org" b!"EXAMPLE.org" := by
  refine ⟨rfl, rfl, rfl, by decide +kernel, by decide +kernel, by unfold SameHost; decide +kernel⟩

example : ∀ op ∈ plainOps, ∀ r p, op ≠ .group r p := by
  intro op h r p
  simp only [plainOps, List.mem_cons, List.not_mem_nil, or_false] at h
  rcases h with rfl | rfl | rfl | rfl <;> simp

/-- **C92 (violation).** The same as an instance: the router with a group panics, although it can be initialized once. -/
example : (run (newWorld sampleFold (fun _ => [])) groupOps).isSome = true ∧
    (times doubled sampleEnv ⟨world groupOps, [], 2⟩ 1).isSome = true ∧ answers groupOps [] = none := by decide +kernel

/-- **C92 (violation).** A router with a middleware, given to two virtual hosts: the middleware runs twice for the routes of
the second one, and for the errors and the catchers of both. -/
theorem C92_middlewares_violation :
    answers usingOps [hostReq b!"example.com" b!"/", hostReq b!"example.org" b!"/", hostReq b!"example.com" b!"/a",
      hostReq b!"example.com" b!"/c", hostReq b!"example.org" b!"/c"] =
      some [b!"Aroot", b!"AAroot", b!"AAcaught a", b!"AAerror", b!"AAerror"] := by decide +kernel

private def catchingOps : List (Op Id) :=
  [.catch 0 b!"/" (say b!"caught") [], .catch 0 b!"/a" (say b!"caught a") [], .catch 0 b!"/b" (say b!"caught b") [], .catch 0 b!"/c" (say b!"caught c") [],
   .catch 0 b!"/d" (say b!"caught d") [], .routeError 0 (say b!"error") [], .group 0 b!"/g", .catch 1 b!"/x" (say b!"caught x") []]

/-- **C92 (violation).** A router with five catchers, and one more in a group, given to two virtual hosts. (The five are in an array of eight, as `append` makes it.) When it is
initialized for the second time, the catcher of the group is appended again, and the array, which the router returned before shares, is sorted again, all seven elements: the last one, which catches `/`, is not among
the six of the router returned before. So the first host does not answer with it any more; the second one does. -/
theorem C92_catchers_violation :
    (hosts doubled sampleEnv ⟨world catchingOps, [], 8⟩ [b!"example.com", b!"example.org"]).map (fun vr =>
      [hostReq b!"example.com" b!"/g/x", hostReq b!"example.com" b!"/a", hostReq b!"example.com" b!"/e", hostReq b!"example.org" b!"/e"].map fun req =>
        (Prod.fst (Id.run (Virtual.onRequest sampleFold (Router.impl (m := Id) sampleFold (Fields.new, req)) vr req).1)).Body) =
      some [b!"caught x", b!"caught a", b!"error", b!"caught"] ∧
    (make sampleFold (fun _ => []) sampleEnv catchingOps).map (fun rt =>
      (rt.onRequest sampleFold (hostReq b!"example.com" b!"/e")).map (fun r => (Prod.fst (Id.run r.1)).Body)) = some (some b!"caught") := by decide +kernel

/-- The routers `C92_no_groups` is about are made. -/
example : (make sampleFold (fun _ => []) sampleEnv (again usingOps 0)).isSome ∧
    (make sampleFold (fun _ => []) sampleEnv (again usingOps 1)).isSome := ⟨rfl, rfl⟩

end Indigo.Props
