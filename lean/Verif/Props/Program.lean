/-
C87 Programs made with the built-in router, end to end.
-/
import Verif.Spec.Program
import Verif.Props.Replies
import Verif.Props.RouterVars
import Verif.Props.RootMiddlewares
import Verif.Props.Address
import Verif.Props.ServeWitness

namespace Indigo.Props
open Indigo.Serve Indigo.Spec Indigo.Router Indigo.Spec.Router

section
variable {m : Type → Type} [Monad m] {F : Fold} {text : GoErr → Bytes} {env : Env m} {ops : List (Op m)} {rt : Runtime m}

omit [Monad m] in
/-- What routers without variables echo. -/
theorem echoed_static (ops : List (Op m)) (req : Request) : Echoed ops (Lookup.static ops) (arriving ops req) ↔ traced ops req = true := by
  simp only [Echoed, Lookup.static, traced, decide_eq_true_eq]
  constructor
  · rintro ⟨h1, _, _, ⟨rfl, -, h2⟩, h3⟩
    exact ⟨h1, h2, h3⟩
  · rintro ⟨h1, h2, h3⟩
    exact ⟨h1, _, _, ⟨rfl, rfl, h2⟩, h3⟩

omit [Monad m] in
/-- What routers with variables echo. -/
theorem echoed_templates {ts : List Spec.Radix.Tmpl} (ht : Templates ops ts) (req : Request) :
    Echoed ops (Lookup.templates ts) (arriving ops req) ↔ TracedBy ops ts req := by
  constructor
  · rintro ⟨h1, _, values, ⟨t, path, rfl, hts, hp, hi, hu⟩, h3⟩
    refine ⟨h1, path, hp, ?_⟩
    by_cases hin : t ∈ ts
    · exact .inl ⟨t, hin, values, hi, hu, h3⟩
    · rcases hts with h | rfl
      · exact absurd h hin
      · have : Spec.Radix.sections path = [] := by
          generalize Spec.Radix.sections path = ss at hi
          cases hi; rfl
        exact .inr ⟨sections_nil this, hin⟩
  · rintro ⟨h1, path, hp, h⟩
    rcases h with ⟨t, hin, values, hi, hu, h3⟩ | ⟨rfl, hroot⟩
    · exact ⟨h1, _, values, ⟨t, path, rfl, .inl hin, hp, hi, hu⟩, h3⟩
    · refine ⟨h1, _, [], ⟨[], [], rfl, .inr rfl, hp, .nil, fun i n s h => by simp at h⟩, ?_⟩
      intro hmem
      obtain ⟨d, hd, he⟩ := List.mem_map.1 ((methodsOf_mem _ _).1 hmem)
      obtain ⟨t', ht', he'⟩ := ht.all _ hd
      rw [he] at he'
      have : t' = [] := C37_parse_partial t' [] (ht.writable _ ht') (by simp [Spec.Radix.Writable]) (by simp only at he'; rw [he'])
      rw [this] at ht'
      exact hroot ht'

/-- Routers without variables call the handler which is to be called. -/
private theorem chosen_static (hm : make F text env ops = some rt) (hs : Static ops) (req : Request)
    (notTrace : ¬ Echoed ops (Lookup.static ops) (arriving ops req)) :
    ∃ h r, Chosen F text ops (Lookup.static ops) (arriving ops req) h r ∧ (rt.onRequest F req).map (·.1) = some (h r) := by
  by_cases hms : methodsOf ops (arriving ops req).Path = []
  · have hno : ∀ route values, ¬ (Lookup.static ops).found (arriving ops req) route values := fun _ _ h => h.2.2 hms
    rcases C39_not_registered hm hs req rfl hms with ⟨p, h, h1, h2, h3, h4⟩ | ⟨h1, h, h2, h3⟩
    · exact ⟨h, _, .caught hno rfl h1 h2 h3, by rw [h4]; rfl⟩
    · exact ⟨h, _, .notFound hno rfl h1 h2, by rw [h3]; rfl⟩
  · have hyes : (Lookup.static ops).found (arriving ops req) (arriving ops req).Path [] := ⟨rfl, rfl, hms⟩
    have e : ∀ ms, onRoute (arriving ops req) [] ms = allowing (arriving ops req) ms := by
      intro ms; simp [onRoute]
    by_cases h1 : (arriving ops req).Method ∈ methodsOf ops (arriving ops req).Path
    · obtain ⟨d, hd, he⟩ := List.mem_map.1 ((methodsOf_mem _ _).1 h1)
      obtain ⟨k, h⟩ := d
      simp only at he
      subst he
      exact ⟨h, _, .route hyes (List.Perm.refl _) hd, by rw [C35_registered hm hs req h hd rfl, e]; rfl⟩
    · by_cases h2 : (arriving ops req).Method = .HEAD ∧ .GET ∈ methodsOf ops (arriving ops req).Path
      · obtain ⟨d, hd, he⟩ := List.mem_map.1 ((methodsOf_mem _ _).1 h2.2)
        obtain ⟨k, h⟩ := d
        simp only at he
        subst he
        rw [h2.1] at h1
        exact ⟨h, _, .head hyes (List.Perm.refl _) h2.1 h1 hd, by rw [C35_head hm hs req h rfl h2.1 h1 hd, e]; rfl⟩
      · have h3 : (arriving ops req).Method = .HEAD → .GET ∉ methodsOf ops (arriving ops req).Path := fun a b => h2 ⟨a, b⟩
        obtain ⟨h, hh, ho⟩ := C35_method_not_allowed hm hs req rfl hms h1 h3 (fun h => notTrace ⟨h, _, _, hyes, by rw [← h]; exact h1⟩)
        exact ⟨h, _, .notAllowed hyes (List.Perm.refl _) h1 h3 hh, by rw [ho, e]; rfl⟩

/-- Routers with variables call the handler which is to be called. -/
private theorem chosen_dynamic (hm : make F text env ops = some rt) (ts : List Spec.Radix.Tmpl) (ht : Templates ops ts) (req : Request)
    (path : Bytes) (hp : (arriving ops req).Path = SLASH :: path) (notTrace : ¬ Echoed ops (Lookup.templates ts) (arriving ops req)) :
    ∃ h r, Chosen F text ops (Lookup.templates ts) (arriving ops req) h r ∧ (rt.onRequest F req).map (·.1) = some (h r) := by
  have hb := built F text env ops rt hm
  obtain ⟨tree, ps, h1, h2, h3, h4⟩ := tree_match hm ht
  have e1 : rt.onRequest F req = rt.onRequest' F (arriving ops req) := by
    rw [Runtime.onRequest]; simp only [arriving_eq hb]
  rw [e1, Runtime.onRequest', h1]
  simp only
  generalize arriving ops req = R at *
  cases hmt : tree.«match» R.Path R.Params with
  | panic =>
    rw [hp] at hmt
    simp only [Radix.Node.«match»] at hmt
    rw [if_neg (by decide)] at hmt
    simp at hmt
  | done p params =>
    rw [hp] at hmt
    cases p with
    | none =>
      have hno : ∀ route values, ¬ (Lookup.templates ts).found R route values := by
        rintro route values ⟨t, path', -, htt, hp', hi, hu⟩
        rw [hp] at hp'
        cases hp'
        have key : ∀ e, ((t, e) ∈ ps ∨ (t = [] ∧ e = {} ∧ [] ∉ ts)) → False := by
          intro e he
          have := (h4 path R.Params _ e).2 ⟨t, values, he, hi, hu, rfl⟩
          rw [hmt] at this
          simp at this
        by_cases hin : t ∈ ts
        · obtain ⟨x, hx, hxt⟩ := List.mem_map.1 ((h2 t).2 hin)
          obtain ⟨t', e⟩ := x
          simp only at hxt
          subst hxt
          exact key e (.inl hx)
        · rcases htt with h | rfl
          · exact hin h
          · exact key {} (.inr ⟨rfl, rfl, hin⟩)
      rcases notFound_outcome hb { R with Params := params } with ⟨p, h, k1, k2, k3, k4⟩ | ⟨k1, h, k2, k3⟩
      · refine ⟨h, _, .caught (params := params) hno trivial k1 k2 k3, ?_⟩
        exact congrArg (fun x => some x.1) k4
      · refine ⟨h, _, .notFound (params := params) hno trivial k1 k2, ?_⟩
        exact congrArg (fun x => some x.1) k3
    | some e =>
      obtain ⟨t, b, k1, k2, k3, k4⟩ := (h4 path _ _ e).1 hmt
      subst k4
      have hyes : (Lookup.templates ts).found R (Spec.Radix.text t) b := by
        refine ⟨t, path, rfl, ?_, hp, k2, k3⟩
        rcases k1 with k1 | ⟨k1, -⟩
        · exact .inl ((h2 t).1 (List.mem_map_of_mem (f := (·.1)) k1))
        · exact .inr k1
      obtain ⟨a1, ms, a2, a3⟩ : (∀ mt x, e.methodsMap mt = some x ↔ ((Spec.Radix.text t, mt), x) ∈ declared ops) ∧
          ∃ ms : List Method, ms.Perm (methodsOf ops (Spec.Radix.text t)) ∧ e.allow = commas (ms.map Method.toBytes) := by
        rcases k1 with k1 | ⟨rfl, rfl, hroot⟩
        · exact h3 t e k1
        · have none : ∀ mt x, ((Spec.Radix.text [], mt), x) ∉ declared ops := by
            intro mt x hx
            obtain ⟨t', ht', he⟩ := ht.all _ hx
            have : t' = [] := C37_parse_partial t' [] (ht.writable _ ht') (by simp [Spec.Radix.Writable]) (by
              simp only at he; rw [he])
            rw [this] at ht'
            exact hroot ht'
          refine ⟨fun mt x => ⟨fun h => by simp at h, fun h => absurd h (none mt x)⟩, [], ?_, rfl⟩
          have : methodsOf ops (Spec.Radix.text []) = [] := by
            rw [List.eq_nil_iff_forall_not_mem]
            intro mt hmt
            obtain ⟨d, hd, he⟩ := List.mem_map.1 ((methodsOf_mem _ _).1 hmt)
            obtain ⟨k, x⟩ := d
            simp only at he
            subst he
            exact none mt x hd
          rw [this]
      have hsome : ∀ mt, mt ∈ methodsOf ops (Spec.Radix.text t) → ∃ h, ((Spec.Radix.text t, mt), h) ∈ declared ops := by
        intro mt hmt
        obtain ⟨d, hd, he⟩ := List.mem_map.1 ((methodsOf_mem _ _).1 hmt)
        obtain ⟨k, h⟩ := d
        simp only at he
        subst he
        exact ⟨h, hd⟩
      have hnone : ∀ mt, mt ∉ methodsOf ops (Spec.Radix.text t) → e.methodsMap mt = none := by
        intro mt hmt
        cases hc : e.methodsMap mt with
        | none => rfl
        | some x => exact absurd ((methodsOf_mem _ _).2 (List.mem_map_of_mem (f := (·.1)) ((a1 _ _).1 hc))) hmt
      simp only
      by_cases m1 : R.Method ∈ methodsOf ops (Spec.Radix.text t)
      · obtain ⟨h, hd⟩ := hsome _ m1
        refine ⟨h, _, .route hyes a2 hd, ?_⟩
        rw [dispatch_some _ e h (by rw [Runtime.getHandler, (a1 _ _).2 hd]) ms a3]
        rfl
      · by_cases m2 : R.Method = .HEAD ∧ .GET ∈ methodsOf ops (Spec.Radix.text t)
        · obtain ⟨h, hd⟩ := hsome _ m2.2
          refine ⟨h, _, .head hyes a2 m2.1 (by rw [← m2.1]; exact m1) hd, ?_⟩
          rw [dispatch_some _ e h (by
            rw [Runtime.getHandler, hnone _ m1]; simp only [m2.1, if_true]; exact (a1 _ _).2 hd) ms a3]
          rfl
        · have m3 : R.Method = .HEAD → .GET ∉ methodsOf ops (Spec.Radix.text t) := fun a b => m2 ⟨a, b⟩
          obtain ⟨h, hh⟩ := C41_always_one F text ops Status.MethodNotAllowed
          refine ⟨h, _, .notAllowed hyes a2 m1 m3 hh, ?_⟩
          rw [dispatch_none hb { R with Params := { R.Params with pairs := R.Params.pairs ++ b.map (fun e => ⟨e.1, e.2⟩) } } e (hnone _ m1) (fun hx => hnone _ (m3 hx)) (fun h => notTrace ⟨h, _, _, hyes, by rw [← h]; exact m1⟩) ms a3 h hh]
          rfl

end

section
variable {σ : Type} {text : GoErr → Bytes} {env : Env Act} {ops : List (Op Act)} {rt : Runtime Act}

theorem after_buff {E : Setup σ (Runtime Act)} (router : E.router = Router.impl E.F .panic)
    (hm : make E.F text env ops = some rt) (history : List Request) :
    ∃ b, routerAfter E rt history = { rt with traceBuff := b } := by
  obtain ⟨b, h⟩ := history_buff hm .panic (history.map .request)
  refine ⟨b, ?_⟩
  rw [← h, routerAfter, Spec.Virtual.after, List.foldl_map, router]
  rfl

theorem program_good {F : Fold} {good : Handler Act → Prop} (all : AllHandlers F text ops good) {h : Handler Act}
    (hk : Known F text ops h) : good h := by
  rcases hk with ⟨k, hk⟩ | ⟨p, hk⟩ | ⟨c, hk⟩
  · exact all.1 _ hk
  · exact all.2.1 _ hk
  · exact all.2.2 _ hk

theorem _root_.Indigo.Spec.Untouched.trans {a b c : Request} (h : Untouched a b) (h' : Untouched b c) : Untouched a c :=
  ⟨h'.method.trans h.method, h'.proto.trans h.proto, h'.connection.trans h.connection, h'.upgrade.trans h.upgrade, h'.remote.trans h.remote,
    fun hq => h'.query (h.query hq)⟩

theorem _root_.Indigo.Spec.Untouched.passed {a b c : Request} (h : Untouched a b) (hp : Passed b c) : Untouched a c := by
  refine h.trans ?_
  rw [hp]
  exact ⟨rfl, rfl, rfl, rfl, rfl, id⟩

theorem _root_.Indigo.Spec.Untouched.normalised {a b : Request} (h : Untouched a b) (p : Bytes) : Untouched a { b with Path := p } :=
  h.trans ⟨rfl, rfl, rfl, rfl, rfl, id⟩

/-- The requests handlers are called with differ from those which arrive in nothing the server needs. -/
theorem chosen_untouched {F : Fold} {L : Lookup} {r r' : Request} {h : Handler Act} (hc : Chosen F text ops L r h r') : Untouched r r' := by
  cases hc <;> exact ⟨rfl, rfl, rfl, rfl, rfl, id⟩

theorem chosen_known {F : Fold} {L : Lookup} {r r' : Request} {h : Handler Act} (hc : Chosen F text ops L r h r') : Known F text ops h := by
  cases hc with
  | route _ _ h => exact .inl ⟨_, h⟩
  | head _ _ _ _ h => exact .inl ⟨_, h⟩
  | notAllowed _ _ _ _ h => exact handlerFor_known h
  | caught _ _ h => exact .inr (.inl ⟨_, h⟩)
  | notFound _ _ _ h => exact handlerFor_known h

/-- What a program does for a request, whatever was echoed before. -/
theorem program_does {F : Fold} (made : make F text env ops = some rt) (L : Lookup) {seen : Request}
    (lookup : (L = .static ops ∧ Static ops) ∨ ∃ ts, L = .templates ts ∧ Templates ops ts ∧ ∃ p, (mutated ops seen).Path = SLASH :: p)
    (b : Bytes) (hmeth : ¬ Echoed ops L (arriving ops seen)) :
    ∃ h r, Chosen F text ops L (arriving ops seen) h r ∧
      Runtime.onRequest F { rt with traceBuff := b } seen = some (h r, { rt with traceBuff := b }) := by
  have key : ∃ h r, Chosen F text ops L (arriving ops seen) h r ∧ (rt.onRequest F seen).map (·.1) = some (h r) := by
    rcases lookup with ⟨rfl, hs⟩ | ⟨ts, rfl, ht, p', hp'⟩
    · exact chosen_static made hs seen hmeth
    · have : ∃ path, (arriving ops seen).Path = SLASH :: path := by
        obtain ⟨n, hn⟩ := (C43_only_slashes_removed (mutated ops seen).Path).2
        show ∃ path, UriNormalize.normalize (mutated ops seen).Path = SLASH :: path
        cases hx : UriNormalize.normalize (mutated ops seen).Path with
        | cons c cs =>
          rw [hx, hp'] at hn
          simp only [List.cons_append, List.cons.injEq] at hn
          exact ⟨cs, by rw [hn.1]⟩
        | nil =>
          rw [hx, List.nil_append] at hn
          rw [C43_short_paths_partial _ (fun c hc => by
            rw [hn] at hc; exact (List.mem_replicate.1 (List.mem_of_mem_drop hc)).2), hp'] at hx
          cases hx
      obtain ⟨path, hpath⟩ := this
      exact chosen_dynamic made ts ht seen path hpath hmeth
  obtain ⟨h, r, hc, hr⟩ := key
  refine ⟨h, r, hc, ?_⟩
  have any : Runtime.onRequest F { rt with traceBuff := b } seen = (rt.onRequest F seen).map (fun x => (x.1, { rt with traceBuff := b })) := by
    rcases lookup with ⟨rfl, hs⟩ | ⟨ts, rfl, ht, -⟩
    · rw [request_static made hs, if_neg (fun h => hmeth ((echoed_static ops seen).2 h))]
    · exact (request_vars made ht seen b).2 (fun h => hmeth ((echoed_templates ht seen).2 h))
  rw [any]
  cases ho : rt.onRequest F seen with
  | none => rw [ho] at hr; cases hr
  | some x =>
    rw [ho] at hr
    simp only [Option.map_some, Option.some.injEq] at hr ⊢
    rw [hr]

/-- Programs whose mutators and handlers leave alone what the server needs are tame. -/
theorem program_tame {E : Setup σ (Runtime Act)} (router : E.router = Router.impl E.F .panic)
    (made : make E.F text env ops = some rt) (mutators : ∀ r, Untouched r (mutated ops r)) (polite : AllHandlers E.F text ops (Polite E)) :
    Tame E rt := by
  have arrives : ∀ r, Untouched r (arriving ops r) := fun r => (mutators r).normalised _
  intro history req w f req' hq hr
  obtain ⟨b, hb⟩ := after_buff router made history
  rw [hb, router] at hr
  simp only [Router.impl] at hr
  have fin : ∀ r', Untouched req r' → (r'.Query.parsed = false → r'.Query.params.pairs = []) ∧ r'.Remote = req.Remote ∧ r'.Proto = req.Proto :=
    fun r' h => ⟨h.query hq, h.remote, h.proto⟩
  rcases request_known made (C41_always_one E.F text ops) b req with ⟨h, r, hk, hp, h1⟩ | ⟨-, f', r, b', hp, h1⟩ | ⟨-, -, h1⟩
  · rw [h1, Option.getD_some] at hr
    exact fin _ (((arrives req).passed hp).trans ((program_good polite hk).request r w f req' hr))
  · rw [h1] at hr
    cases hr
    exact fin _ ((arrives req).passed hp)
  · rw [h1] at hr
    cases hr

/-- What a program does for a request which arrives. -/
theorem program_chosen
    {E : Setup σ (Runtime Act)} (router : E.router = Router.impl E.F .panic) {cfg : Config}
    (made : make E.F text env ops = some rt) {L : Lookup} {good : Sending → Prop}
    (lookup : (L = .static ops ∧ Static ops) ∨
      ∃ ts, L = .templates ts ∧ Templates ops ts ∧ (∀ s, good s → ∃ p, s.path = SLASH :: p) ∧
        ∀ r p, r.Path = SLASH :: p → ∃ p', (mutated ops r).Path = SLASH :: p')
    (mutators : ∀ r, Untouched r (mutated ops r)) :
    ∀ (history : List Request) remote post e (s : Sending) after seen world, s.head.method ≠ .TRACE → good s →
      Delivered E cfg.maxEncodingTokens.toNat remote post e s after seen world →
      ∃ h r, Chosen E.F text ops L (arriving ops seen) h r ∧ (E.router.onRequest (routerAfter E rt history) seen).1 = h r := by
  intro history remote post e s after seen world hnt hgood del
  have arrives : ∀ r, Untouched r (arriving ops r) := fun r => (mutators r).normalised _
  have hmeth : (arriving ops seen).Method ≠ .TRACE := by
    rw [(arrives seen).method, del.carries.method]; exact hnt
  obtain ⟨b, hb⟩ := after_buff router made history
  obtain ⟨h, r, hc, hr⟩ := program_does (seen := seen) made L (by
    rcases lookup with ⟨rfl, hs⟩ | ⟨ts, rfl, ht, hroot, hmut⟩
    · exact .inl ⟨rfl, hs⟩
    · obtain ⟨p, hp⟩ := hroot s hgood
      exact .inr ⟨ts, rfl, ht, hmut seen p (by rw [del.path]; exact hp)⟩) b (fun h => hmeth h.1)
  refine ⟨h, r, hc, ?_⟩
  rw [hb, router]
  simp only [Router.impl, hr]
  rfl

/-- Programs answer. -/
theorem program_answering {version : Request → Proto}
    {E : Setup σ (Runtime Act)} (router : E.router = Router.impl E.F .panic) {cfg : Config}
    (made : make E.F text env ops = some rt) {L : Lookup} {good : Sending → Prop}
    (lookup : (L = .static ops ∧ Static ops) ∨
      ∃ ts, L = .templates ts ∧ Templates ops ts ∧ (∀ s, good s → ∃ p, s.path = SLASH :: p) ∧
        ∀ r p, r.Path = SLASH :: p → ∃ p', (mutated ops r).Path = SLASH :: p')
    (mutators : ∀ r, Untouched r (mutated ops r)) (polite : AllHandlers E.F text ops (Polite E))
    (answers : ∀ remote post e s after seen world h r, SendableWith E.F cfg s → good s →
      Delivered E cfg.maxEncodingTokens.toNat remote post e s after seen world → Chosen E.F text ops L (arriving ops seen) h r →
      ∃ f r' left, (h r).run E.P E.maxAlloc ⟨world.1, world.2, false⟩ = (some (f, r'), left) ∧
        Readable (cfg.defaultHeaders.getD []) (version seen) f) :
    AnsweringIn version E (fun s => SendableWith E.F cfg s ∧ s.head.method ≠ .TRACE ∧ good s) cfg.maxEncodingTokens.toNat
      (cfg.defaultHeaders.getD []) rt := by
  have arrives : ∀ r, Untouched r (arriving ops r) := fun r => (mutators r).normalised _
  have does := program_chosen (cfg := cfg) router made lookup mutators
  refine ⟨?_, ?_⟩
  · intro history remote post e s after seen world hok del
    obtain ⟨h, r, hc, hr⟩ := does history remote post e s after seen world hok.2.1 hok.2.2 del
    obtain ⟨f, r', left, h1, h2⟩ := answers remote post e s after seen world h r hok.1 hok.2.2 del hc
    have hg := program_good polite (chosen_known hc)
    have hu := ((arrives seen).trans (chosen_untouched hc)).trans (hg.request r ⟨world.1, world.2, false⟩ f r' (by rw [h1]))
    refine ⟨f, r', left, by unfold Answers; rw [hr]; exact h1, ?_, h2, hu.method, hu.connection, hu.upgrade⟩
    have := hg.hijacked r ⟨world.1, world.2, false⟩
    rw [h1] at this
    exact this
  · intro history req e world hw
    obtain ⟨b, hb⟩ := after_buff router made history
    rw [hb, router]
    simp only [Router.impl, Runtime.onError]
    rcases error_known (built E.F text env ops rt made) (C41_always_one E.F text ops) b
      (Runtime.runMutators { rt with traceBuff := b } req) e with ⟨h, r, hk, -, h1⟩ | ⟨-, -, f, b', h1⟩ | ⟨-, h1⟩
    · rw [h1, (program_good polite hk).hijacked r world]; exact hw
    · rw [h1]; exact hw
    · rw [h1]; exact hw

/-- **C87.** The program of the user is any sequence of calls to the built-in router: routes for paths with or without variables, groups, middlewares, catchers,
error handlers, mutators. A client sends requests one after another on a connection, in any segmentation, without waiting; they are well-formed and within the limits, none has the
method TRACE, and each except perhaps the last one leaves the connection open. The handlers answer, with responses which say how long they are, when they are called with what `Chosen` says; they do not hijack the connection, and leave some
fields of the request alone. Then what comes back is one response for each request, in order, and nothing else; the i-th one has the version of the i-th request, and the code, the body (unless the method is HEAD) and the headers which the
`Chosen` handler gives for what this request says and for the body sent with it. -/
theorem C87_program (E : Setup σ (Runtime Act)) (dec : DecodesChunked E.P) (router : E.router = Router.impl E.F .panic) (cfg : Config)
    (size : cfg.bodyMaxSize < 2 ^ 64) (defaults : DefaultsOK E.F (cfg.defaultHeaders.getD [])) (enc : EncToken) (remote : Bytes)
    (ops : List (Op Act)) (made : make E.F text env ops = some rt) (L : Lookup) (good : Sending → Prop)
    (lookup : (L = .static ops ∧ Static ops) ∨
      ∃ ts, L = .templates ts ∧ Templates ops ts ∧ (∀ s, good s → ∃ p, s.path = SLASH :: p) ∧
        ∀ r p, r.Path = SLASH :: p → ∃ p', (mutated ops r).Path = SLASH :: p')
    (mutators : ∀ r, Untouched r (mutated ops r)) (polite : AllHandlers E.F text ops (Polite E))
    (answers : ∀ remote post e s after seen world h r, SendableWith E.F cfg s → good s →
      Delivered E cfg.maxEncodingTokens.toNat remote post e s after seen world → Chosen E.F text ops L (arriving ops seen) h r →
      ∃ f r' left, (h r).run E.P E.maxAlloc ⟨world.1, world.2, false⟩ = (some (f, r'), left) ∧
        Readable (cfg.defaultHeaders.getD []) seen.Proto f)
    (buffer : cfg.responseBuffSize < 16 ^ 8) (cl : Client) (quiet : Quiet cl) (writes : NoWriteError cl) (post : List (Bytes × Option GoErr)) (silent : Silent post)
    (ss : List Sending) (ok : ∀ s ∈ ss, SendableWith E.F cfg s ∧ s.head.method ≠ .TRACE ∧ good s) (stream : cl.stream = ss.flatMap Sending.bytes)
    (upgrade : ∀ s ∈ ss, s.head.last b!"upgrade" = none) (keep : ∀ s ∈ ss.dropLast, KeepsOpen s.head) :
    ∃ frames msgs,
      (serve E (newConn E.P cfg enc remote rt (followedBy cl post))).1.client.written = cl.written ++ frames ∧
      readReplies (ss.map (fun s => s.head.method)) frames.flatten = some msgs ∧ msgs.length = ss.length ∧
      ∀ i : Nat, ∀ (s : Sending) (m : Msg), ss[i]? = some s → msgs[i]? = some m →
        ∃ e after seen world h r f r' left, Delivered E cfg.maxEncodingTokens.toNat remote post e s after seen world ∧
          Chosen E.F text ops L (arriving ops seen) h r ∧
          (h r).run E.P E.maxAlloc ⟨world.1, world.2, false⟩ = (some (f, r'), left) ∧
          versionName seen.Proto = some m.version ∧ m.code = f.Code ∧ m.rest = (if s.head.method = .HEAD then [] else sentBody f) ∧
          SaysFields (cfg.defaultHeaders.getD []) f m.fields := by
  have tame : Tame E rt := program_tame router made mutators polite
  have does := program_chosen (cfg := cfg) router made lookup mutators
  have answering := program_answering (version := Request.Proto) router made lookup mutators polite answers
  obtain ⟨frames, msgs, h1, h2, h3, h4⟩ := C71_replies_readable_for E dec cfg size defaults enc remote rt tame _ answering buffer cl quiet writes
    post silent ss ok stream upgrade keep
  refine ⟨frames, msgs, h1, h2, h3, ?_⟩
  intro i s m hi hm
  obtain ⟨history, e, after, seen, world, f, req, left, -, del, ans, hver, hcode, hbody, hfields⟩ := h4 i s m hi hm
  have hok := (ok s (List.mem_of_getElem? hi)).2
  obtain ⟨h, r, hc, hr⟩ := does history remote post e s after seen world hok.1 hok.2 del
  unfold Answers at ans
  rw [hr] at ans
  exact ⟨e, after, seen, world, h, r, f, req, left, del, hc, ans, hver, hcode, hbody, hfields⟩

/-! ### The hypotheses are met -/

/-- A middleware which adds an exclamation mark. -/
def loudly : Middleware Act := fun next r => do
  let (f, r) ← next r
  pure (f.bytes (f.Body ++ b!"!"), r)

/-- A program with a route with a variable, a middleware, an alias, a group with a catcher, and an error handler. -/
def diner : List (Op Act) :=
  [.use 0 [loudly],
   .group 0 b!"/menu",
   .route 1 .POST b!"/{dish}" (fun r => pure (Fields.new.bytes ((r.Params.pairs.head?.map Pair.Value).getD []), r)) [],
   .alias 0 b!"/b c" b!"/menu/soup",
   .catch 0 b!"/a" (fun r => pure (Fields.new.bytes b!"a", r)) [],
   .routeError 0 (fun r => pure (Fields.new.code 400, r)) [404, 405]]

/-- Its router. -/
def dinerRouter : Runtime Act :=
  (make Fold.ascii (fun _ => []) sampleEnv diner).get (by decide +kernel)

/-- Its server. -/
def dinerSetup : Setup CS (Runtime Act) :=
  { F := Fold.ascii, P := refParser, maxAlloc := 2 ^ 32, router := Router.impl Fold.ascii .panic }

/-- What its handlers answer, to whichever request. -/
private theorem diner_declared : declared diner = [((b!"/menu/{dish}", .POST),
    fun r => pure (Fields.new.bytes (((r.Params.pairs.head?.map Pair.Value).getD []) ++ b!"!"), r))] := rfl

private theorem diner_catchers : catchers diner = [(b!"/a", fun r => pure (Fields.new.bytes b!"a!", r))] := rfl

private theorem diner_errors (c : Status.Code) (hc : c = 404 ∨ c = 405) : handlerFor Fold.ascii (fun _ => []) diner c =
    some (fun r => pure ((Fields.new.code 400).bytes b!"!", r)) := by
  rcases hc with rfl | rfl <;> rfl

/-- A handler which does nothing but answer does nothing impolite. -/
theorem polite_pure {ρ : Type} (E : Setup σ ρ) (h : Handler Act) (hh : ∀ r, ∃ f, h r = pure (f, r)) : Polite E h where
  request r w f r' hr := by
    obtain ⟨g, hg⟩ := hh r
    rw [hg] at hr
    cases hr
    exact ⟨rfl, rfl, rfl, rfl, rfl, id⟩
  hijacked r w := by
    obtain ⟨g, hg⟩ := hh r
    rw [hg]
    rfl

private theorem bad_plain (p : Proto) (b : Bytes) : Readable (Config.default.defaultHeaders.getD []) p ((Fields.new.code 400).bytes b) where
  clean := ⟨by simp [Fields.new, Fields.bytes, Fields.code], noBreak_html, noBreak_nil, by simp [Fields.new, Fields.bytes, Fields.code]⟩
  attachment _ h := by cases h
  framing := ⟨by simp [Fields.new, Fields.bytes, Fields.code], by decide +kernel, rfl⟩
  final := by show 200 ≤ 400; decide
  noBody h := absurd h (by show ¬ (400 = 204 ∨ 400 = 304); decide)

private theorem diner_mutated (r : Request) : mutated diner r = aliasMutator b!"/b c" b!"/menu/soup" r := rfl

/-- C87: the hypotheses are met by this program and three requests, cut into segments somehow: one for the catcher, one for the alias and
thereby the route, and one for the root, which has no route; and this is what the client reads. -/
example : ∃ cl : Client, Quiet cl ∧ NoWriteError cl ∧ cl.stream = [posted, chunked, gotten].flatMap Sending.bytes ∧
    (∀ s ∈ [posted, chunked, gotten], SendableWith dinerSetup.F Config.default s ∧ s.head.method ≠ .TRACE ∧ ∃ p, s.path = SLASH :: p) ∧
    make dinerSetup.F (fun _ => []) sampleEnv diner = some dinerRouter ∧
    Templates diner [[.lit b!"menu", .var b!"dish"]] ∧ (∀ r p, r.Path = SLASH :: p → ∃ p', (mutated diner r).Path = SLASH :: p') ∧
    (∀ r, Untouched r (mutated diner r)) ∧ AllHandlers dinerSetup.F (fun _ => []) diner (Polite dinerSetup) ∧
    (∀ r (world : Act.World CS) h r', Chosen dinerSetup.F (fun _ => []) diner (.templates [[.lit b!"menu", .var b!"dish"]]) r h r' →
      ∃ f, (h r').run dinerSetup.P dinerSetup.maxAlloc world = (some (f, r'), world) ∧ ∀ p, Readable (Config.default.defaultHeaders.getD []) p f) ∧
    (readReplies [.POST, .POST, .GET]
      (serve dinerSetup (newConn dinerSetup.P Config.default 1 b!"1.2.3.4" dinerRouter (followedBy cl []))).1.client.written.flatten).map
      (List.map (fun m => (m.code, m.rest))) = some [(200, b!"a!"), (200, b!"soup!"), (400, b!"!")] := by
  refine ⟨arrive [posted.bytes.take 41, posted.bytes.drop 41 ++ chunked.bytes.take 55, chunked.bytes.drop 55 ++ gotten.bytes],
    ?_, by simp [NoWriteError, arrive], by decide +kernel, ?_, by simp [dinerRouter, dinerSetup], ?_, ?_, ?_, ?_, ?_, by decide +kernel⟩
  · unfold Quiet; decide +kernel
  · intro s hs
    simp only [List.mem_cons, List.not_mem_nil, or_false] at hs
    rcases hs with rfl | rfl | rfl
    · exact ⟨posted_ok, by decide, _, rfl⟩
    · exact ⟨chunked_ok, by decide, _, rfl⟩
    · exact ⟨gotten_ok, by decide, _, rfl⟩
  · refine ⟨?_, ?_, ?_, ⟨_, List.mem_singleton.2 rfl, b!"dish", by simp⟩⟩
    · intro t ht
      rw [List.mem_singleton.1 ht]
      refine ⟨?_, by simp, by simp⟩
      intro q hq
      simp only [List.mem_cons, List.not_mem_nil, or_false] at hq
      rcases hq with rfl | rfl
      · exact ⟨by decide, by decide⟩
      · unfold Spec.Radix.Part.Valid; decide
    · rw [diner_declared]
      intro d hd
      rw [List.mem_singleton.1 hd]
      exact ⟨_, List.mem_singleton.2 rfl, rfl⟩
    · intro t ht
      rw [List.mem_singleton.1 ht, diner_declared]
      exact ⟨_, List.mem_singleton.2 rfl, rfl⟩
  · intro r p hp
    rw [diner_mutated, aliasMutator]
    split
    · exact ⟨_, rfl⟩
    · exact ⟨p, hp⟩
  · intro r
    rw [diner_mutated, aliasMutator]
    split <;> exact ⟨rfl, rfl, rfl, rfl, rfl, id⟩
  · refine ⟨?_, ?_, ?_⟩
    · rw [diner_declared]
      intro d hd
      rw [List.mem_singleton.1 hd]
      exact polite_pure _ _ (fun r => ⟨_, rfl⟩)
    · rw [diner_catchers]
      intro d hd
      rw [List.mem_singleton.1 hd]
      exact polite_pure _ _ (fun r => ⟨_, rfl⟩)
    · intro e he
      have : errorHandlers (Spec.Router.defaults dinerSetup.F (fun _ => [])) diner = [(0, loudly (defaultAllErrorsHandler (fun _ => []))),
        (405, loudly (defaultMethodNotAllowedHandler Fold.ascii (fun _ => []))),
        (404, loudly (fun r => pure (Fields.new.code 400, r))), (405, loudly (fun r => pure (Fields.new.code 400, r)))] := rfl
      rw [this] at he
      simp only [List.mem_cons, List.not_mem_nil, or_false] at he
      rcases he with rfl | rfl | rfl | rfl <;> exact polite_pure _ _ (fun r => ⟨_, rfl⟩)
  · intro r world h r' hc
    have err : ∀ c, c = 404 ∨ c = 405 → handlerFor dinerSetup.F (fun _ => []) diner c = some h →
        ∃ f, (h r').run dinerSetup.P dinerSetup.maxAlloc world = (some (f, r'), world) ∧ ∀ p, Readable (Config.default.defaultHeaders.getD []) p f := by
      intro c hc he
      have := diner_errors c hc
      rw [show dinerSetup.F = Fold.ascii from rfl, this] at he
      cases he
      exact ⟨_, rfl, fun p => bad_plain p _⟩
    have route : ∀ k, (k, h) ∈ declared diner →
        ∃ f, (h r').run dinerSetup.P dinerSetup.maxAlloc world = (some (f, r'), world) ∧ ∀ p, Readable (Config.default.defaultHeaders.getD []) p f := by
      intro k hk
      rw [diner_declared] at hk
      cases List.mem_singleton.1 hk
      exact ⟨_, rfl, fun p => report_plain p _⟩
    cases hc with
    | route _ _ h => exact route _ h
    | head _ _ _ _ h => exact route _ h
    | notAllowed _ _ _ _ h => exact err _ (.inr rfl) h
    | caught _ _ h =>
      rw [diner_catchers] at h
      cases List.mem_singleton.1 h
      exact ⟨_, rfl, fun p => report_plain p _⟩
    | notFound _ _ _ h => exact err _ (.inl rfl) h

end
end Indigo.Props
