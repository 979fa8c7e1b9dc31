/-
C104 Every router which can be built: what it does for every request.
-/
import Verif.Props.RadixExact
import Verif.Props.RouterVars
import Verif.Spec.EveryRouter

namespace Indigo.Props
open Indigo.Router Indigo.Spec Indigo.Spec.Router Indigo.Spec.Radix

section
variable {m : Type → Type} {ops : List (Op m)}

private theorem static_iff (t : Tmpl) : Radix.isStatic (t.map Radix.Node.seg) = false ↔ ∃ n, Part.var n ∈ t := by
  induction t with
  | nil => simp [Radix.isStatic]
  | cons p t ih =>
    rw [List.map_cons, Radix.isStatic]
    cases p with
    | lit s =>
      rw [show (Radix.Node.seg (.lit s)).IsWildcard = false from rfl]
      simp [ih]
    | var n =>
      rw [show (Radix.Node.seg (.var n)).IsWildcard = true from rfl]
      simp

private theorem isDyn_iff (p : Bytes) : isDyn p = true ↔ ∃ t n, meant p = some t ∧ Part.var n ∈ t := by
  cases hp : Radix.parse p with
  | error e =>
    have : ∀ t, meant p ≠ some t := by
      intro t ht
      rw [(C36_meant p).1 t ht] at hp
      cases hp
    simp [isDyn, hp, this]
  | ok T =>
    obtain ⟨t, ht, rfl⟩ := (parse_meant_iff p T).1 hp
    simp only [isDyn, hp, ht, Option.some.injEq, Bool.not_eq_true']
    rw [static_iff]
    constructor
    · rintro ⟨n, hn⟩; exact ⟨t, n, rfl, hn⟩
    · rintro ⟨_, n, rfl, hn⟩; exact ⟨n, hn⟩

private theorem mem_templatesOf {t : Tmpl} : t ∈ templatesOf ops ↔ ∃ d ∈ declared ops, meant d.1.1 = some t := List.mem_filterMap

theorem hasVariables_iff : HasVariables ops ↔ ∃ d ∈ declared ops, isDyn d.1.1 = true := by
  simp only [HasVariables, mem_templatesOf, isDyn_iff]
  constructor
  · rintro ⟨t, ⟨d, hd, ht⟩, n, hn⟩; exact ⟨d, hd, t, n, ht, hn⟩
  · rintro ⟨d, hd, t, n, ht, hn⟩; exact ⟨t, ⟨d, hd, ht⟩, n, hn⟩

private theorem parsed_iff (p : Bytes) : (∃ T, Radix.parse p = .ok T) ↔ (meant p).isSome = true := by
  rw [Option.isSome_iff_exists]
  constructor
  · rintro ⟨T, hT⟩
    obtain ⟨t, ht, -⟩ := (parse_meant_iff p T).1 hT
    exact ⟨t, ht⟩
  · rintro ⟨t, ht⟩
    exact ⟨_, (C36_meant p).1 t ht⟩

private theorem compatible_self (t : Tmpl) : Compatible t t := by
  intro i a b _ ha hb
  rw [ha] at hb
  simpa using hb

private theorem compatible_symm {a b : Tmpl} (h : Compatible a b) : Compatible b a :=
  fun i x y h1 h2 h3 => (h i y x h1.symm h3 h2).symm

private theorem mem_meant {π : Type} {L : List (Bytes × π)} {ts : List (Tmpl × π)}
    (h : L.map (fun x => (meant x.1, x.2)) = ts.map (fun x => (some x.1, x.2))) (t : Tmpl) (e : π) :
    (t, e) ∈ ts ↔ ∃ p, (p, e) ∈ L ∧ meant p = some t := by
  constructor
  · intro ht
    have : ((some t, e) : Option Tmpl × π) ∈ L.map (fun x => (meant x.1, x.2)) := by
      rw [h]; exact List.mem_map_of_mem (f := fun x : Tmpl × π => (some x.1, x.2)) ht
    obtain ⟨⟨p, e'⟩, hx, he⟩ := List.mem_map.1 this
    simp only [Prod.mk.injEq] at he
    exact ⟨p, by rw [← he.2]; exact hx, he.1⟩
  · rintro ⟨p, hp, ht⟩
    have : ((some t, e) : Option Tmpl × π) ∈ ts.map (fun x => (some x.1, x.2)) := by
      rw [← h, ← ht]; exact List.mem_map_of_mem (f := fun x : Bytes × π => (meant x.1, x.2)) hp
    obtain ⟨⟨t', e'⟩, hx, he⟩ := List.mem_map.1 this
    simp only [Prod.mk.injEq, Option.some.injEq] at he
    rw [← he.1, ← he.2]; exact hx

private theorem templates_iff {L : List (Bytes × Endpoint m)} {ts : List (Tmpl × Endpoint m)} (hL : TreeOk L (declared ops))
    (h : L.map (fun x => (meant x.1, x.2)) = ts.map (fun x => (some x.1, x.2))) (t : Tmpl) : t ∈ ts.map (·.1) ↔ t ∈ templatesOf ops := by
  rw [mem_templatesOf]
  constructor
  · intro ht
    obtain ⟨⟨t, e⟩, hx, rfl⟩ := List.mem_map.1 ht
    obtain ⟨p, hp, hpt⟩ := (mem_meant h t e).1 hx
    obtain ⟨d, hd, rfl⟩ := hL.sound p e hp
    exact ⟨d, hd, hpt⟩
  · rintro ⟨d, hd, hdt⟩
    obtain ⟨e, he⟩ := hL.complete d hd
    exact List.mem_map_of_mem (f := (·.1)) ((mem_meant h t e).2 ⟨_, he, hdt⟩)

private theorem lastFor_meant {π : Type} (t : Tmpl) : ∀ (L : List (Bytes × π)) (ts : List (Tmpl × π)),
    L.map (fun x => (meant x.1, x.2)) = ts.map (fun x => (some x.1, x.2)) →
    Radix.lastFor ts t = ((L.filter (fun x => meant x.1 = some t)).getLast?).map (·.2) := by
  intro L ts h
  have : (ts.filter (fun x => x.1 = t)).map (·.2) = (L.filter (fun x => meant x.1 = some t)).map (·.2) := by
    induction L generalizing ts with
    | nil =>
      cases ts with
      | nil => rfl
      | cons _ _ => simp at h
    | cons x L ih =>
      cases ts with
      | nil => simp at h
      | cons y ts =>
        simp only [List.map_cons, List.cons.injEq, Prod.mk.injEq] at h
        obtain ⟨⟨h1, h2⟩, h3⟩ := h
        simp only [List.filter_cons, h1, Option.some.injEq]
        split
        · rw [List.map_cons, List.map_cons, ih ts h3, h2]
        · exact ih ts h3
  rw [Radix.lastFor, ← List.getLast?_map, this, List.getLast?_map]

variable [Monad m] {F : Fold} {text : GoErr → Bytes} {env : Env m} {rt : Runtime m}

/-- **C104.** A router can be built exactly if groups and resources are made before they are used, all routes can be read, no route is registered twice with the same method, and no prefix twice on the same router
for catchers; and, if some route has a variable, no two routes have variables of different names at the same place. -/
theorem C104_accepted (F : Fold) (text : GoErr → Bytes) (env : Env m) (ops : List (Op m)) :
    (∃ rt, make F text env ops = some rt) ↔
      WellReferenced ops ∧ (∀ d ∈ declared ops, (meant d.1.1).isSome = true) ∧ ((declared ops).map (·.1)).Nodup ∧
      (∀ r, (ownCatcherPaths ops r).Nodup) ∧
      (HasVariables ops → ∀ t ∈ templatesOf ops, ∀ t' ∈ templatesOf ops, Compatible t t') := by
  rw [← Option.isSome_iff_exists]
  have key : Sound ops → ((make F text env ops).isSome = true ↔
      (HasVariables ops → ∀ t ∈ templatesOf ops, ∀ t' ∈ templatesOf ops, Compatible t t')) := by
    intro hsound
    obtain ⟨L, hL, hiff⟩ := build_isSome F text env ops hsound
    rw [make, hiff, ← hasVariables_iff]
    refine imp_congr_right (fun _ => ?_)
    rw [C36_registration_exactly]
    constructor
    · rintro ⟨ts, hts, hp⟩ t ht t' ht'
      obtain ⟨x, hx, rfl⟩ := List.mem_map.1 ((templates_iff hL hts t).2 ht)
      obtain ⟨y, hy, rfl⟩ := List.mem_map.1 ((templates_iff hL hts t').2 ht')
      exact pairwise_forall (R := fun t t' : Tmpl × Endpoint m => Compatible t.1 t'.1) (fun a => compatible_self a.1)
        (fun a b h => compatible_symm h) hp x hx y hy
    · intro h
      have : ∃ ts : List (Tmpl × Endpoint m), L.map (fun x => (meant x.1, x.2)) = ts.map (fun x => (some x.1, x.2)) := by
        have hall : ∀ x ∈ L, (meant x.1).isSome = true := by
          intro x hx
          obtain ⟨d, hd, hdp⟩ := hL.sound x.1 x.2 hx
          rw [← hdp]
          exact (parsed_iff _).1 (hsound.parsed d hd)
        clear hiff hL h
        induction L with
        | nil => exact ⟨[], rfl⟩
        | cons x L ih =>
          obtain ⟨ts, hts⟩ := ih (fun y hy => hall y (by simp [hy]))
          obtain ⟨t, ht⟩ := Option.isSome_iff_exists.1 (hall x (by simp))
          exact ⟨(t, x.2) :: ts, by simp [ht, hts]⟩
      obtain ⟨ts, hts⟩ := this
      refine ⟨ts, hts, pairwise_of_forall (fun x hx y hy => ?_)⟩
      exact h _ ((templates_iff hL hts x.1).1 (List.mem_map_of_mem hx)) _ ((templates_iff hL hts y.1).1 (List.mem_map_of_mem hy))
  constructor
  · intro h
    have := build_sound F text env ops h
    exact ⟨this.refs, fun d hd => (parsed_iff _).1 (this.parsed d hd), this.nodup, this.caught, (key this).1 h⟩
  · rintro ⟨h1, h2, h3, h4, h5⟩
    exact (key ⟨h1, fun d hd => (parsed_iff _).2 (h2 d hd), h3, h4⟩).2 h5

/-- What looking up a path comes to. -/
private def Outcome (F : Fold) (rt : Runtime m) (ops : List (Op m)) (L : Lookup) (R : Request) : Prop :=
  (∃ (route : Bytes) (values : List (Bytes × Bytes)) (e : Endpoint m) (ms : List Method), L.found R route values ∧ (∀ mt x, e.methodsMap mt = some x ↔ ((route, mt), x) ∈ declared ops) ∧
    ms.Perm (methodsOf ops route) ∧ e.allow = commas (ms.map Method.toBytes) ∧
    ∀ b, Runtime.onRequest' F { rt with traceBuff := b } R =
      some (Runtime.dispatch F { rt with traceBuff := b } { R with Params := { R.Params with pairs := R.Params.pairs ++ values.map (fun e => ⟨e.1, e.2⟩) } } e)) ∨
  ((∀ route values, ¬ L.found R route values) ∧ ∃ params, L.left R params ∧
    ∀ b, Runtime.onRequest' F { rt with traceBuff := b } R = some (Runtime.onError' F { rt with traceBuff := b } { R with Params := params } (.http Status.ErrNotFound)))

private theorem outcome_static (made : make F text env ops = some rt) (hs : ¬ HasVariables ops) (R : Request) : Outcome F rt ops (.static ops) R := by
  have hb := built F text env ops rt made
  obtain ⟨M, hM, hok⟩ := hb.static (fun d hd => by
    cases hx : isDyn d.1.1 with
    | false => rfl
    | true => exact absurd (hasVariables_iff.2 ⟨d, hd, hx⟩) hs)
  have := hok R.Path
  cases hg : M.get? R.Path with
  | none =>
    rw [hg] at this
    refine Or.inr ⟨?_, R.Params, rfl, fun b => ?_⟩
    · rintro route values ⟨-, -, h⟩
      obtain ⟨mt, hmt⟩ := List.exists_mem_of_ne_nil _ h
      obtain ⟨d, hd, he⟩ := List.mem_map.1 ((methodsOf_mem _ _).1 hmt)
      exact this d hd (by rw [he])
    · rw [Runtime.onRequest']
      simp only [hM, hg]
  | some e =>
    rw [hg] at this
    obtain ⟨⟨d, hd, hdp⟩, h2, h3⟩ := this
    refine Or.inl ⟨R.Path, [], e, _, ⟨rfl, rfl, ?_⟩, h2, List.Perm.refl _, by rw [h3, allow_eq, allow_methods _ _ h2], fun b => ?_⟩
    · intro hh
      have : d.1.2 ∈ methodsOf ops R.Path :=
        (methodsOf_mem _ _).2 (by rw [← hdp]; exact List.mem_map_of_mem (f := (·.1)) hd)
      rw [hh] at this
      simp at this
    · rw [Runtime.onRequest']
      simp only [hM, hg, List.map_nil, List.append_nil]

private theorem outcome_picked (made : make F text env ops = some rt) (hv : HasVariables ops) :
    ∃ pick, Picks ops pick ∧ (∀ R : Request, R.Path ≠ [] → Outcome F rt ops (.picked ops pick) R) ∧
      ∀ (R : Request) b, R.Path = [] → Runtime.onRequest' F { rt with traceBuff := b } R = none := by
  have hb := built F text env ops rt made
  obtain ⟨tree, L, h1, h2, h3⟩ := hb.dynamic (hasVariables_iff.1 hv)
  obtain ⟨ts, hts⟩ := meant_all L _ _ h2
  let pick : Tmpl → Option Bytes := fun t => ((L.filter (fun x => meant x.1 = some t)).getLast?).map (·.1)
  have hpick : ∀ t route, pick t = some route → ∃ e, (route, e) ∈ L ∧ meant route = some t ∧ Radix.lastFor ts t = some e := by
    intro t route h
    rw [lastFor_meant t L ts hts]
    simp only [pick, Option.map_eq_some_iff] at h
    obtain ⟨⟨p, e⟩, hx, rfl⟩ := h
    have := List.mem_filter.1 (List.mem_of_getLast? hx)
    exact ⟨e, this.1, by simpa using this.2, by rw [hx]; rfl⟩
  have hback : ∀ t e, Radix.lastFor ts t = some e → ∃ route, pick t = some route ∧ (route, e) ∈ L := by
    intro t e h
    rw [lastFor_meant t L ts hts] at h
    simp only [Option.map_eq_some_iff] at h
    obtain ⟨⟨p, e⟩, hx, rfl⟩ := h
    exact ⟨p, by simp only [pick, hx, Option.map_some], (List.mem_filter.1 (List.mem_of_getLast? hx)).1⟩
  have hnone : ∀ t, pick t = none ↔ t ∉ ts.map (·.1) := by
    intro t
    constructor
    · intro h ht
      obtain ⟨⟨t, e⟩, hx, rfl⟩ := List.mem_map.1 ht
      obtain ⟨p, hp, hpt⟩ := (mem_meant hts t e).1 hx
      simp only [pick, Option.map_eq_none_iff, List.getLast?_eq_none_iff, List.filter_eq_nil_iff, decide_eq_true_eq] at h
      exact h _ hp hpt
    · intro h
      cases hp : pick t with
      | none => rfl
      | some route =>
        obtain ⟨e, he, hm, -⟩ := hpick t route hp
        exact absurd (List.mem_map_of_mem (f := (·.1)) ((mem_meant hts t e).2 ⟨_, he, hm⟩)) h
  have hunsh : ∀ t ss, Unshadowed (ts.map (·.1)) t ss ↔ Unshadowed (templatesOf ops) t ss := by
    intro t ss
    unfold Unshadowed
    simp only [templates_iff h3 hts]
  have hmatch := C36_match_exactly {} L ts hts tree h2
  refine ⟨pick, ⟨?_, ?_⟩, ?_, ?_⟩
  · intro t route h
    obtain ⟨e, he, hm, -⟩ := hpick t route h
    obtain ⟨d, hd, hdp⟩ := h3.sound route e he
    exact ⟨by rw [← hdp]; exact List.mem_map_of_mem (f := (·.1.1)) hd, hm⟩
  · intro t ht
    cases hp : pick t with
    | some _ => rfl
    | none => exact absurd ((templates_iff h3 hts t).2 ht) ((hnone t).1 hp)
  · intro R hR
    obtain ⟨c, path, hc⟩ := List.exists_cons_of_ne_nil hR
    by_cases hcs : c = SLASH
    · subst hcs
      cases hmt : tree.«match» (SLASH :: path) R.Params with
      | panic =>
        simp only [Radix.Node.«match»] at hmt
        rw [if_neg (by decide)] at hmt
        simp at hmt
      | done p params =>
        cases p with
        | none =>
          refine Or.inr ⟨?_, params, ?_, fun b => ?_⟩
          · rintro route values ⟨t, path', hp', hr, hi, hu⟩
            rw [hc] at hp'
            cases hp'
            have key : ∀ e, (Radix.lastFor ts t = some e ∨ (t = [] ∧ e = {} ∧ [] ∉ ts.map (·.1))) → False := by
              intro e he
              have := (hmatch path R.Params _ e).2 ⟨t, values, he, hi, (hunsh _ _).2 hu, rfl⟩
              have hmt' : tree.«match» (47 :: path) R.Params = .done none params := hmt
              rw [hmt'] at this
              simp at this
            rcases hr with hr | ⟨rfl, hr, -⟩
            · obtain ⟨e, -, -, he⟩ := hpick t route hr
              exact key e (.inl he)
            · exact key {} (.inr ⟨rfl, rfl, (hnone _).1 hr⟩)
          · rcases C36_left {} L ts hts tree h2 path R.Params params hmt with h | ⟨t, ht, i, v, hi, he⟩
            · exact .inl h
            · exact .inr ⟨path, t, i, v, hc, (templates_iff h3 hts t).1 ht, hi, he⟩
          · rw [Runtime.onRequest']
            simp only [h1, hc, hmt]
        | some e =>
          obtain ⟨t, v, hr, hi, hu, rfl⟩ := (hmatch path R.Params params e).1 hmt
          rcases hr with hr | ⟨rfl, rfl, hr⟩
          · obtain ⟨route, hp, hin⟩ := hback t e hr
            obtain ⟨ms, hms, ha⟩ := tree_allow h3 hin
            refine Or.inl ⟨route, v, e, ms, ⟨t, path, hc, .inl hp, hi, (hunsh _ _).1 hu⟩, h3.methods _ _ hin, hms, ha, fun b => ?_⟩
            rw [Runtime.onRequest']
            simp only [h1, hc, hmt]
          · have none : ∀ mt x, ((b!"/", mt), x) ∉ declared ops := by
              intro mt x hx
              have : ([] : Tmpl) ∈ templatesOf ops := mem_templatesOf.2 ⟨_, hx, show meant b!"/" = some [] by decide⟩
              exact hr ((templates_iff h3 hts []).2 this)
            have hms : methodsOf ops b!"/" = [] := by
              rw [List.eq_nil_iff_forall_not_mem]
              intro mt hmt
              obtain ⟨⟨k, x⟩, hd, he⟩ := List.mem_map.1 ((methodsOf_mem _ _).1 hmt)
              simp only at he
              subst he
              exact none mt x hd
            refine Or.inl ⟨b!"/", v, {}, [], ⟨[], path, hc, .inr ⟨rfl, (hnone _).2 hr, rfl⟩, hi, (hunsh _ _).1 hu⟩, ?_, by rw [hms], rfl, fun b => ?_⟩
            · intro mt x
              exact ⟨fun h => by simp at h, fun h => absurd h (none mt x)⟩
            · rw [Runtime.onRequest']
              simp only [h1, hc, hmt]
    · refine Or.inr ⟨?_, R.Params, .inl rfl, fun b => ?_⟩
      · rintro route values ⟨t, path', hp', -⟩
        rw [hc] at hp'
        cases hp'
        exact hcs rfl
      · have hx : tree.«match» (c :: path) R.Params = .done none R.Params := by simp [Radix.Node.«match», hcs]
        rw [Runtime.onRequest']
        simp only [h1, hc, hx]
  · intro R b hR
    rw [Runtime.onRequest']
    simp only [h1, hR]
    rfl

private theorem instance_length {t : Tmpl} {ss : List Bytes} {b : List (Bytes × Bytes)} (h : Instance t ss b) : t.length = ss.length := by
  induction h <;> simp_all

private theorem instance_values {t : Tmpl} {ss : List Bytes} {b : List (Bytes × Bytes)} (h : Instance t ss b) : ∀ b', Instance t ss b' → b = b' := by
  induction h with
  | nil => intro b' h'; cases h'; rfl
  | lit _ ih => intro b' h'; cases h' with | lit h' => exact ih _ h'
  | var hn _ _ ih =>
    intro b' h'
    cases h' with
    | var _ _ h' => rw [ih _ h']
    | anonymous _ _ => exact absurd rfl hn
  | anonymous _ _ ih =>
    intro b' h'
    cases h' with
    | var hn _ _ => exact absurd rfl hn
    | anonymous _ h' => exact ih _ h'

theorem instance_at {t : Tmpl} {ss : List Bytes} {b : List (Bytes × Bytes)} (h : Instance t ss b) : ∀ (i : Nat) s, t[i]? = some (.lit s) → ss[i]? = some s := by
  induction h with
  | nil => simp
  | lit _ ih =>
    intro i s hs
    cases i with
    | zero => simpa using hs
    | succ i => simpa using ih i s (by simpa using hs)
  | var _ _ _ ih =>
    intro i s hs
    cases i with
    | zero => simp at hs
    | succ i => simpa using ih i s (by simpa using hs)
  | anonymous _ _ ih =>
    intro i s hs
    cases i with
    | zero => simp at hs
    | succ i => simpa using ih i s (by simpa using hs)

private theorem take_snoc {α : Type} {l : List α} {i : Nat} {x : α} (h : l[i]? = some x) : l.take (i + 1) = l.take i ++ [x] := by
  rw [List.take_add_one, h]; rfl

private theorem one_template {ts : List Tmpl} (hc : ∀ t ∈ ts, ∀ t' ∈ ts, Compatible t t') {ss : List Bytes} {t t' : Tmpl} {b b' : List (Bytes × Bytes)}
    (h : t ∈ ts ∨ t = []) (h' : t' ∈ ts ∨ t' = []) (hi : Instance t ss b) (hi' : Instance t' ss b') (hu : Unshadowed ts t ss) (hu' : Unshadowed ts t' ss) : t = t' := by
  have hl := instance_length hi
  have hl' := instance_length hi'
  have key : ∀ i, t.take i = t'.take i := by
    intro i
    induction i with
    | zero => rfl
    | succ i ih =>
      by_cases hlt : i < ss.length
      · have hin : ∀ u : Tmpl, u ∈ ts ∨ u = [] → u.length = ss.length → u ∈ ts := by
          rintro u (hu | rfl) hlen
          · exact hu
          · simp at hlen; omega
        have h := hin t h hl
        have h' := hin t' h' hl'
        obtain ⟨p, hp⟩ : ∃ p, t[i]? = some p := ⟨_, List.getElem?_eq_getElem (by omega)⟩
        obtain ⟨p', hp'⟩ : ∃ p, t'[i]? = some p := ⟨_, List.getElem?_eq_getElem (by omega)⟩
        rw [take_snoc hp, take_snoc hp', ih]
        cases p with
        | lit s =>
          have hs := instance_at hi i s hp
          cases p' with
          | lit s' =>
            have hs' := instance_at hi' i s' hp'
            rw [hs] at hs'
            cases hs'
            rfl
          | var n =>
            refine absurd ?_ (hu' i n s hp' hs t h)
            rw [← ih, ← take_snoc hp]
            exact List.take_prefix _ _
        | var n =>
          cases p' with
          | lit s' =>
            have hs' := instance_at hi' i s' hp'
            refine absurd ?_ (hu i n s' hp hs' t' h')
            rw [ih, ← take_snoc hp']
            exact List.take_prefix _ _
          | var n' => rw [hc t h t' h' i n n' ih hp hp']
      · rw [List.take_of_length_le (by omega), List.take_of_length_le (by omega)] at ih
        rw [ih]
  have := key ss.length
  rwa [List.take_of_length_le (by omega), List.take_of_length_le (by omega)] at this

/-- **C104.** At most one route is found for a request, with one choice of values. -/
theorem C104_one_route (made : make F text env ops = some rt) (L : Lookup) (hL : Looks ops L) (r : Request) (route route' : Bytes) (values values' : List (Bytes × Bytes))
    (h : L.found r route values) (h' : L.found r route' values') : route = route' ∧ values = values' := by
  cases hL with
  | static =>
    obtain ⟨rfl, rfl, -⟩ := h
    obtain ⟨rfl, rfl, -⟩ := h'
    exact ⟨rfl, rfl⟩
  | @picked pick hv hp =>
    have hc := ((C104_accepted F text env ops).1 ⟨rt, made⟩).2.2.2.2 hv
    obtain ⟨t, path, h1, h2, h3, h4⟩ := h
    obtain ⟨t', path', h1', h2', h3', h4'⟩ := h'
    rw [h1] at h1'
    cases h1'
    have hin : ∀ t route, (pick t = some route ∨ (t = [] ∧ pick [] = none ∧ route = b!"/")) → t ∈ templatesOf ops ∨ t = [] := by
      intro t route h
      rcases h with h | ⟨rfl, -⟩
      · obtain ⟨k1, k2⟩ := hp.sound t route h
        obtain ⟨d, hd, rfl⟩ := List.mem_map.1 k1
        exact .inl (mem_templatesOf.2 ⟨d, hd, k2⟩)
      · exact .inr rfl
    have e := one_template hc (hin t _ h2) (hin t' _ h2') h3 h3' h4 h4'
    subst e
    refine ⟨?_, instance_values h3 _ h3'⟩
    rcases h2 with h2 | ⟨rfl, h2, rfl⟩
    · rcases h2' with h2' | ⟨rfl, h2', rfl⟩
      · rw [h2] at h2'; exact Option.some.inj h2'
      · rw [h2] at h2'; cases h2'
    · rcases h2' with h2' | ⟨-, -, rfl⟩
      · rw [h2] at h2'; cases h2'
      · rfl

private theorem does (made : make F text env ops = some rt) (L : Lookup) (R : Request)
    (one : ∀ route values route' values', L.found R route values → L.found R route' values' → route = route') (h : Outcome F rt ops L R) (b : Bytes) :
    (Echoed ops L R ∧ ∃ route values ms, L.found R route values ∧ ms.Perm (methodsOf ops route) ∧
      Runtime.onRequest' F { rt with traceBuff := b } R =
        some (pure (traceResponse F Fields.new (b ++ echo R), onRoute R values ms), { rt with traceBuff := b ++ echo R })) ∨
    (¬ Echoed ops L R ∧ ∃ h r, Chosen F text ops L R h r ∧ Runtime.onRequest' F { rt with traceBuff := b } R = some (h r, { rt with traceBuff := b })) := by
  have hb := built F text env ops rt made
  rcases h with ⟨route, values, e, ms, hf, he, hms, ha, ho⟩ | ⟨hno, params, hl, ho⟩
  · have hsome : ∀ mt, mt ∈ methodsOf ops route → ∃ h, ((route, mt), h) ∈ declared ops := by
      intro mt hmt
      obtain ⟨⟨k, h⟩, hd, hk⟩ := List.mem_map.1 ((methodsOf_mem _ _).1 hmt)
      simp only at hk
      subst hk
      exact ⟨h, hd⟩
    have hnone : ∀ mt, mt ∉ methodsOf ops route → e.methodsMap mt = none := by
      intro mt hmt
      cases hc : e.methodsMap mt with
      | none => rfl
      | some x => exact absurd ((methodsOf_mem _ _).2 (List.mem_map_of_mem (f := (·.1)) ((he _ _).1 hc))) hmt
    rw [ho b]
    by_cases hT : R.Method = .TRACE ∧ .TRACE ∉ methodsOf ops route
    · refine .inl ⟨⟨hT.1, route, values, hf, hT.2⟩, route, values, ms, hf, hms, ?_⟩
      obtain ⟨r', -, hd⟩ := dispatch_trace F rt b { R with Params := { R.Params with pairs := R.Params.pairs ++ values.map (fun e => ⟨e.1, e.2⟩) } } e hT.1 (hnone _ hT.2)
      have hg : Runtime.getHandler R.Method e.methodsMap = none := by
        rw [Runtime.getHandler, hT.1, hnone _ hT.2]; simp
      have hr := render_allowing { R with Params := { R.Params with pairs := R.Params.pairs ++ values.map (fun e => ⟨e.1, e.2⟩) } } b ms
      simp only [Runtime.dispatch, hg, ha]
      rw [Runtime.onError', if_pos ⟨hT.1, rfl⟩]
      have hr' : renderHTTPRequest (onRoute R values ms) b = b ++ echo R := hr
      have hx : ∀ rr : Request, rr = onRoute R values ms → (some (pure (traceResponse F Fields.new (renderHTTPRequest rr b), rr), ({ rt with traceBuff := renderHTTPRequest rr b } : Runtime m)) : Option (m (Fields × Request) × Runtime m)) =
          some (pure (traceResponse F Fields.new (b ++ echo R), onRoute R values ms), { rt with traceBuff := b ++ echo R }) := by
        rintro rr rfl
        rw [hr']
      exact hx _ rfl
    · refine .inr ⟨?_, ?_⟩
      · rintro ⟨hm, route', values', hf', ht'⟩
        rw [← one _ _ _ _ hf hf'] at ht'
        exact hT ⟨hm, ht'⟩
      rw [dispatch_other F rt b { R with Params := { R.Params with pairs := R.Params.pairs ++ values.map (fun e => ⟨e.1, e.2⟩) } } e (by
        intro hm
        by_cases hin : Method.TRACE ∈ methodsOf ops route
        · obtain ⟨h, hd⟩ := hsome _ hin
          rw [(he _ _).2 hd]; rfl
        · exact absurd ⟨hm, hin⟩ hT)]
      by_cases m1 : R.Method ∈ methodsOf ops route
      · obtain ⟨h, hd⟩ := hsome _ m1
        refine ⟨h, _, .route hf hms hd, ?_⟩
        rw [dispatch_some _ e h (by rw [Runtime.getHandler, (he _ _).2 hd]) ms ha]
        rfl
      · by_cases m2 : R.Method = .HEAD ∧ .GET ∈ methodsOf ops route
        · obtain ⟨h, hd⟩ := hsome _ m2.2
          refine ⟨h, _, .head hf hms m2.1 (by rw [← m2.1]; exact m1) hd, ?_⟩
          rw [dispatch_some _ e h (by
            rw [Runtime.getHandler, hnone _ m1]; simp only [m2.1, if_true]; exact (he _ _).2 hd) ms ha]
          rfl
        · have m3 : R.Method = .HEAD → .GET ∉ methodsOf ops route := fun a b => m2 ⟨a, b⟩
          obtain ⟨h, hh⟩ := C41_always_one F text ops Status.MethodNotAllowed
          refine ⟨h, _, .notAllowed hf hms m1 m3 hh, ?_⟩
          rw [dispatch_none hb { R with Params := { R.Params with pairs := R.Params.pairs ++ values.map (fun e => ⟨e.1, e.2⟩) } } e (hnone _ m1) (fun hx => hnone _ (m3 hx)) (fun h => hT ⟨h, by rw [← h]; exact m1⟩) ms ha h hh]
          rfl
  · refine .inr ⟨fun ⟨_, route', values', hf', _⟩ => hno _ _ hf', ?_⟩
    rw [ho b, onError_buff F rt b _ (.http Status.ErrNotFound) (fun h => absurd h.2 (by decide))]
    rcases notFound_outcome hb { R with Params := params } with ⟨p, h, k1, k2, k3, k4⟩ | ⟨k1, h, k2, k3⟩
    · exact ⟨h, _, .caught (params := params) hno hl k1 k2 k3, by rw [k4]⟩
    · exact ⟨h, _, .notFound (params := params) hno hl k1 k2, by rw [k3]⟩

/-- **C104.** Every router which can be built, and every request (as its mutators leave it, without trailing slashes), whatever has been echoed before (`b`): the router echoes it, or the handler which is to be called is called,
with the request it is to be called with. The only exception is an empty path, if there are routes with variables: the router panics then. How paths are looked up does not depend on requests. -/
theorem C104_every_router (made : make F text env ops = some rt) :
    ∃ L, Looks ops L ∧ ∀ (req : Request) (b : Bytes),
      (HasVariables ops → (arriving ops req).Path = [] → Runtime.onRequest F { rt with traceBuff := b } req = none) ∧
      (¬ (HasVariables ops ∧ (arriving ops req).Path = []) →
        (Echoed ops L (arriving ops req) ∧ ∃ route values ms, L.found (arriving ops req) route values ∧ ms.Perm (methodsOf ops route) ∧
          Runtime.onRequest F { rt with traceBuff := b } req =
            some (pure (traceResponse F Fields.new (b ++ echo (arriving ops req)), onRoute (arriving ops req) values ms),
              { rt with traceBuff := b ++ echo (arriving ops req) })) ∨
        (¬ Echoed ops L (arriving ops req) ∧ ∃ h r, Chosen F text ops L (arriving ops req) h r ∧
          Runtime.onRequest F { rt with traceBuff := b } req = some (h r, { rt with traceBuff := b }))) := by
  have hb := built F text env ops rt made
  have e2 : ∀ (req : Request) (b : Bytes), Runtime.onRequest F { rt with traceBuff := b } req =
      Runtime.onRequest' F { rt with traceBuff := b } (arriving ops req) := by
    intro req b
    rw [Runtime.onRequest, ← arriving_eq hb]; rfl
  by_cases hv : HasVariables ops
  · obtain ⟨pick, hp, ho, hn⟩ := outcome_picked made hv
    have hL : Looks ops (.picked ops pick) := .picked hv hp
    refine ⟨_, hL, fun req b => ⟨fun _ he => by rw [e2]; exact hn _ b he, fun hne => ?_⟩⟩
    rw [e2]
    exact does made _ _ (fun _ _ _ _ h h' => (C104_one_route made _ hL _ _ _ _ _ h h').1) (ho _ (fun he => hne ⟨hv, he⟩)) b
  · have hL : Looks ops (.static ops) := .static hv
    refine ⟨_, hL, fun req b => ⟨fun h => absurd h hv, fun _ => ?_⟩⟩
    rw [e2]
    exact does made _ _ (fun _ _ _ _ h h' => (C104_one_route made _ hL _ _ _ _ _ h h').1) (outcome_static made hv _) b

open Classical in
/-- **C104**, and C42 for every router: whatever requests it has served, the router is what it was when it was built, but for the texts of the requests it has echoed: an echo is the text of the request
after those of all the earlier ones, from whatever connection; and nothing else of what it does depends on what it has served. It fails to serve only if a path is empty when it arrives, and there are routes with variables. -/
theorem C104_history (made : make F text env ops = some rt) :
    ∃ L, Looks ops L ∧ ∀ reqs : List Request,
      ((HasVariables ops → ∀ r ∈ reqs, (arriving ops r).Path ≠ []) → (serving F rt reqs).isSome = true) ∧
      ∀ rt', serving F rt reqs = some rt' → ∀ req : Request,
        (Echoed ops L (arriving ops req) → ∃ f req' rt'', rt'.onRequest F req = some (pure (f, req'), rt'') ∧ f.Code = 200 ∧ f.ContentType = b!"message/http" ∧
          f.Body = (reqs.filter (fun r => decide (Echoed ops L (arriving ops r)))).flatMap (fun r => echo (arriving ops r)) ++ echo (arriving ops req)) ∧
        (¬ Echoed ops L (arriving ops req) → (HasVariables ops ∧ (arriving ops req).Path = [] ∧ rt'.onRequest F req = none) ∨
          ∃ h r, Chosen F text ops L (arriving ops req) h r ∧ rt'.onRequest F req = some (h r, rt')) := by
  obtain ⟨L, hL, hdo⟩ := C104_every_router made
  refine ⟨L, hL, ?_⟩
  have hb0 : rt.traceBuff = [] := (built F text env ops rt made).buff
  have key : ∀ (reqs : List Request) (b : Bytes),
      ((HasVariables ops → ∀ r ∈ reqs, (arriving ops r).Path ≠ []) → (serving F { rt with traceBuff := b } reqs).isSome = true) ∧
      ∀ rt', serving F { rt with traceBuff := b } reqs = some rt' →
        rt' = { rt with traceBuff := b ++ (reqs.filter (fun r => decide (Echoed ops L (arriving ops r)))).flatMap (fun r => echo (arriving ops r)) } := by
    intro reqs
    induction reqs with
    | nil =>
      intro b
      refine ⟨fun _ => rfl, fun rt' h => ?_⟩
      cases h
      simp
    | cons r reqs ih =>
      intro b
      by_cases hc : HasVariables ops ∧ (arriving ops r).Path = []
      · refine ⟨fun h => absurd hc.2 (h hc.1 r (List.mem_cons_self ..)), fun rt' h => ?_⟩
        rw [serving, (hdo r b).1 hc.1 hc.2] at h
        cases h
      · rcases (hdo r b).2 hc with ⟨he, _, _, _, -, -, h1⟩ | ⟨hne, _, _, -, h1⟩
        · rw [serving, h1]
          refine ⟨fun h => (ih _).1 (fun hv x hx => h hv x (List.mem_cons_of_mem _ hx)), fun rt' h => ?_⟩
          rw [(ih _).2 rt' h, List.filter_cons_of_pos (by simpa using he), List.flatMap_cons, List.append_assoc]
        · rw [serving, h1]
          refine ⟨fun h => (ih _).1 (fun hv x hx => h hv x (List.mem_cons_of_mem _ hx)), fun rt' h => ?_⟩
          rw [(ih _).2 rt' h, List.filter_cons_of_neg (by simpa using hne)]
  have e : { rt with traceBuff := [] } = rt := by rw [← hb0]
  intro reqs
  refine ⟨fun h => by have := (key reqs []).1 h; rwa [e] at this, fun rt' h req => ?_⟩
  have hrt' := (key reqs []).2 rt' (by rw [e]; exact h)
  rw [List.nil_append] at hrt'
  subst hrt'
  by_cases hc : HasVariables ops ∧ (arriving ops req).Path = []
  · refine ⟨fun he => ?_, fun _ => .inl ⟨hc.1, hc.2, (hdo req _).1 hc.1 hc.2⟩⟩
    · obtain ⟨_, route, values, hf, _⟩ := he
      cases hL with
      | static hn => exact absurd hc.1 hn
      | picked _ _ =>
        obtain ⟨t, path, hp, -⟩ := hf
        rw [hc.2] at hp
        cases hp
  · rcases (hdo req _).2 hc with ⟨he, _, _, _, -, -, h1⟩ | ⟨hne, hd, r, hch, h1⟩
    · refine ⟨fun _ => ⟨_, _, _, h1, ?_⟩, fun h => absurd he h⟩
      have h1 : F.eq b!"Content-Type" b!"content-type" = true := (F.eq_iff_lower (by decide) (by decide)).2 (by decide)
      simp [traceResponse, Fields.header, h1, Fields.contentType, Fields.bytes, Fields.new]
    · exact ⟨fun h => absurd h hne, fun _ => .inr ⟨hd, r, hch, h1⟩⟩

omit [Monad m] in
/-- **C104, violated.** If two routes are taken for the same template (and some route has a variable), one of them is never found, by no request: its handlers are never called. -/
theorem C104_dead_route_violation (hv : HasVariables ops) (L : Lookup) (hL : Looks ops L) (p p' : Bytes) (t : Tmpl) (hne : p ≠ p')
    (hp : p ∈ (declared ops).map (·.1.1)) (hp' : p' ∈ (declared ops).map (·.1.1)) (ht : meant p = some t) (ht' : meant p' = some t) :
    (∀ r values, ¬ L.found r p values) ∨ ∀ r values, ¬ L.found r p' values := by
  cases hL with
  | static h => exact absurd hv h
  | @picked pick _ hk =>
    have hin : ∀ q, q ∈ (declared ops).map (·.1.1) → meant q = some t → t ∈ templatesOf ops := by
      intro q hq hqt
      obtain ⟨d, hd, rfl⟩ := List.mem_map.1 hq
      exact mem_templatesOf.2 ⟨d, hd, hqt⟩
    have key : ∀ q, q ∈ (declared ops).map (·.1.1) → meant q = some t → ∀ r values, (Lookup.picked ops pick).found r q values → pick t = some q := by
      rintro q hq hqt r values ⟨t', path, -, h, -⟩
      rcases h with h | ⟨rfl, h, rfl⟩
      · have := (hk.sound t' q h).2
        rw [hqt] at this
        cases this
        exact h
      · have : t = [] := by
          have e : meant b!"/" = some [] := by decide
          rw [e] at hqt
          exact (Option.some.inj hqt).symm
        subst this
        have := hk.complete [] (hin _ hq hqt)
        rw [h] at this
        simp at this
    by_cases h1 : pick t = some p
    · refine .inr (fun r values h => ?_)
      have := key p' hp' ht' r values h
      rw [h1] at this
      exact hne (Option.some.inj this)
    · exact .inl (fun r values h => h1 (key p hp ht r values h))

end

/-- Two routes which are taken for the same template. -/
private def twice : List (Op Id) :=
  [.route 0 .GET b!"/users/{id}" (fun r => (Fields.new.code 201, r)) [], .route 0 .GET b!"/users/{id}/x" (fun r => (Fields.new.code 202, r)) []]

/-- Maps are visited in the order opposite to the one of insertion. -/
private def backwards : Env Id := { (sampleEnv : Env Id) with routes := List.reverse, routes_perm := List.reverse_perm }

private theorem twice_made (env : Env Id) : ∃ rt, make sampleFold (fun _ => []) env twice = some rt := by
  rw [C104_accepted]
  have hd : (declared twice).map (·.1) = [(b!"/users/{id}", .GET), (b!"/users/{id}/x", .GET)] := by decide +kernel
  have ht : templatesOf twice = [[.lit b!"users", .var b!"id"], [.lit b!"users", .var b!"id"]] := by decide +kernel
  refine ⟨?_, ?_, by rw [hd]; decide, ?_, ?_⟩
  · intro before op after h
    have h0 : op.on = 0 := by
      have : op ∈ twice := by rw [h]; simp
      simp only [twice, List.mem_cons, List.not_mem_nil, or_false] at this
      rcases this with rfl | rfl <;> rfl
    rw [h0]
    exact places_pos before
  · intro d h
    have : d.1 ∈ (declared twice).map (·.1) := List.mem_map_of_mem (f := (·.1)) h
    rw [hd] at this
    simp only [List.mem_cons, List.not_mem_nil, or_false] at this
    rcases this with h | h <;> rw [h] <;> decide
  · intro r
    exact List.Pairwise.nil
  · intro _ t h t' h'
    rw [ht] at h h'
    simp only [List.mem_cons, List.not_mem_nil, or_false, or_self] at h h'
    rw [h, h']
    exact compatible_self _

/-- **C104, violated.** Which one of two such routes is found depends on the order in which Go visits a map when the router is built: the same program answers the same request differently from one start to the next one. -/
theorem C104_map_order_violation :
    ∃ (ops : List (Op Id)) (env env' : Env Id) (rt rt' : Runtime Id) (req : Request),
      make sampleFold (fun _ => []) env ops = some rt ∧ make sampleFold (fun _ => []) env' ops = some rt' ∧
      (rt.onRequest sampleFold req).map (fun x => (Id.run x.1).1.Code) = some 202 ∧
      (rt'.onRequest sampleFold req).map (fun x => (Id.run x.1).1.Code) = some 201 := by
  obtain ⟨rt, h⟩ := twice_made sampleEnv
  obtain ⟨rt', h'⟩ := twice_made backwards
  refine ⟨twice, sampleEnv, backwards, rt, rt', { Method := .GET, Path := b!"/users/42" }, h, h', ?_, ?_⟩
  · have : ((make sampleFold (fun _ => []) sampleEnv twice).bind (fun rt => rt.onRequest sampleFold { Method := .GET, Path := b!"/users/42" })).map (fun x => (Id.run x.1).1.Code) = some 202 := by
      decide +kernel
    rw [h] at this
    exact this
  · have : ((make sampleFold (fun _ => []) backwards twice).bind (fun rt => rt.onRequest sampleFold { Method := .GET, Path := b!"/users/42" })).map (fun x => (Id.run x.1).1.Code) = some 201 := by
      decide +kernel
    rw [h'] at this
    exact this

/-- The hypotheses of the theorems can be met: the router above can be built, it has variables, both of its routes are taken for the same template, and a route is found for `/users/42`. -/
example : (∃ rt, make sampleFold (fun _ => []) sampleEnv twice = some rt) ∧ HasVariables twice ∧
    Picks twice (fun t => if t = [.lit b!"users", .var b!"id"] then some b!"/users/{id}" else none) ∧
    (∀ meth, (Lookup.picked twice (fun t => if t = [.lit b!"users", .var b!"id"] then some b!"/users/{id}" else none)).found { Method := meth, Path := b!"/users/42" } b!"/users/{id}" [(b!"id", b!"42")]) ∧
    .TRACE ∉ methodsOf twice b!"/users/{id}" := by
  have ht : templatesOf twice = [[.lit b!"users", .var b!"id"], [.lit b!"users", .var b!"id"]] := by decide +kernel
  refine ⟨twice_made _, ⟨[.lit b!"users", .var b!"id"], by rw [ht]; simp, b!"id", by simp⟩, ⟨?_, ?_⟩, fun meth => ?_, by decide +kernel⟩
  · intro t route h
    split at h
    · cases h
      rename_i e
      rw [e]
      exact ⟨by decide +kernel, by decide⟩
    · cases h
  · intro t h
    rw [ht] at h
    simp only [List.mem_cons, List.not_mem_nil, or_false, or_self] at h
    rw [h]; rfl
  · refine ⟨[.lit b!"users", .var b!"id"], b!"users/42", rfl, .inl rfl, .lit (.var (by decide) (by decide) .nil), ?_⟩
    intro i n s hi hs t ht' hp
    rw [ht] at ht'
    simp only [List.mem_cons, List.not_mem_nil, or_false, or_self] at ht'
    subst ht'
    match i with
    | 0 => simp at hi
    | 1 => exact absurd hp (by simp)
    | i + 2 => simp at hi

end Indigo.Props
