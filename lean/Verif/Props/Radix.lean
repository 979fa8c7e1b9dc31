/-
C36 Dynamic routing: templates match the paths they describe.
C37 Distinct templates stay distinct.
-/
import Verif.Proofs.Radix

namespace Indigo.Props

open Indigo.Radix Indigo.Radix.Node Indigo.Spec.Radix

variable {π : Type}

/-- Templates which start with a literal section, contain no stray braces and do not end with a literal section of one
byte are accepted, and keep their sections. -/
theorem C36_parse_partial (t : Tmpl) (h : Writable t) :
    parse (text t) = .ok (t.map (fun | .lit s => ⟨s, false⟩ | .var n => ⟨n, true⟩)) := by
  rw [parse_text t h]
  congr 1

example : Writable [.lit b!"users", .var b!"id", .lit b!"posts"] :=
  ⟨by intro p hp; simp at hp; rcases hp with rfl | rfl | rfl <;> simp [Part.Valid],
   by simp, by simp⟩

theorem pairwise_compatible (ts : List (Tmpl × π)) :
    (ts.map (fun t => (t.1.map seg, t.2))).Pairwise (fun t t' => ∀ i x y, t'.1[i]? = some ⟨x, true⟩ →
      (t'.1.take i ++ [⟨y, true⟩]) <+: t.1 → x = y) ↔ ts.Pairwise (fun t t' => Compatible t.1 t'.1) := by
  rw [List.pairwise_map]
  refine List.Pairwise.iff ?_
  intro t t'
  constructor
  · intro h i x y htk hx hy
    have hlen : i < t.1.length := by
      refine Decidable.byContradiction fun hn => ?_
      rw [List.getElem?_eq_none (by omega)] at hx
      simp at hx
    refine (h i y x ?_ ?_).symm
    · simp only [List.getElem?_map, hy]; rfl
    · show (t'.1.map seg).take i ++ [seg (.var x)] <+: t.1.map seg
      rw [← List.map_take, ← htk]
      have : t.1.take i ++ [Part.var x] = t.1.take (i + 1) := by
        rw [List.take_add_one, hx]; rfl
      rw [show [seg (.var x)] = [Part.var x].map seg from rfl, ← List.map_append, this]
      exact ((List.take_prefix _ _).map seg)
  · intro h i x y hx hp
    simp only [List.getElem?_map, Option.map_eq_some_iff] at hx
    obtain ⟨q, hq, hqs⟩ := hx
    cases q with
    | lit s => simp [seg] at hqs
    | var x' =>
      simp [seg] at hqs; subst hqs
      have hi' : i < t'.1.length := by
        refine Decidable.byContradiction fun hn => ?_
        rw [List.getElem?_eq_none (by omega)] at hq
        simp at hq
      have hp : (t'.1.take i ++ [Part.var y]).map seg <+: t.1.map seg := by
        simpa [seg, List.map_take] using hp
      have hp : t'.1.take i ++ [Part.var y] <+: t.1 := by
        obtain ⟨r, hr⟩ := hp
        have e := congrArg (List.take (t'.1.take i ++ [Part.var y]).length) hr
        rw [List.take_left' (by simp), ← List.map_take] at e
        have := map_seg_inj e
        rw [this]; exact List.take_prefix _ _
      obtain ⟨r, hr⟩ := hp
      have hlen : (t'.1.take i).length = i := by simp; omega
      have h1 : t.1.take i = t'.1.take i := by
        rw [← hr, List.append_assoc]; exact List.take_left' hlen
      have h2 : t.1[i]? = some (.var y) := by
        rw [← hr, List.append_assoc, List.getElem?_append_right (by omega), hlen]; simp
      exact (h i y _ h1 h2 hq).symm

/-- Registration fails exactly if two templates have variables of different names at the same place. -/
theorem C36_registration (zero : π) (ts : List (Tmpl × π)) (hw : ∀ t ∈ ts, Writable t.1) :
    (∃ tree, register (Node.new zero) (ts.map (fun t => (text t.1, t.2))) = .ok tree) ↔
      ts.Pairwise (fun t t' => Compatible t.1 t'.1) := by
  rw [register_eq ts hw, insertAll_ok_iff _ (Node.new zero) (wf_newNode _), pairwise_compatible]
  constructor
  · exact fun h => h.2
  · refine fun h => ⟨?_, h⟩
    intro t _ i x y _ hs
    rw [Node.new, walk_newNode] at hs
    simp at hs

/-- Once registered, a path is routed to a template (and its handlers) exactly if it is an instance of it and literal
sections do not take precedence; the parameters added are the values of the named variables, in their order. The
root has handlers (`zero`, none for any method) even if it is not registered. -/
theorem C36_match_partial (zero : π) (ts : List (Tmpl × π)) (hw : ∀ t ∈ ts, Writable t.1)
    (hd : (ts.map (·.1)).Nodup) (tree : Node π)
    (h : register (Node.new zero) (ts.map (fun t => (text t.1, t.2))) = .ok tree)
    (path : Bytes) (params params' : Storage) (p : π) :
    tree.«match» (47 :: path) params = .done (some p) params' ↔
      ∃ t b, ((t, p) ∈ ts ∨ (t = [] ∧ p = zero ∧ [] ∉ ts.map (·.1))) ∧
        Instance t (sections path) b ∧ Unshadowed (ts.map (·.1)) t (sections path) ∧
        params' = { params with pairs := params.pairs ++ b.map (fun e => ⟨e.1, e.2⟩) } := by
  rw [register_eq ts hw] at h
  obtain ⟨hwf, hpay, hnodes⟩ := insertAll_spec _ (Node.new zero) _ (wf_newNode _) h
  have hm : tree.«match» (47 :: path) params =
      .done (greedy tree (sections path) params).1 (greedy tree (sections path) params).2 := by
    simp only [«match»]
    rw [if_neg (by decide), matchLoop_eq _ _ _ _ (Nat.le_refl _)]
  rw [hm]
  have e : (MatchResult.done (greedy tree (sections path) params).1 (greedy tree (sections path) params).2 =
      .done (some p) params') ↔ greedy tree (sections path) params = (some p, params') := by
    simp [Prod.ext_iff]
  rw [e, greedy_iff _ _ _ _ _ hwf]
  have hlast : ∀ t : Tmpl, lastOf (ts.map (fun t => (t.1.map seg, t.2))) (t.map seg) = firstOf ts t := by
    intro t
    have hd' : ((ts.map (fun t => (t.1.map seg, t.2))).map (·.1)).Nodup := by
      rw [List.map_map]
      have : ((fun x : Template × π => x.1) ∘ fun t : Tmpl × π => (t.1.map seg, t.2)) =
          (fun x => x.map seg) ∘ (fun x : Tmpl × π => x.1) := rfl
      rw [this, ← List.map_map]
      rw [List.nodup_iff_pairwise_ne] at hd ⊢
      exact List.pairwise_map.2 (hd.imp (fun hne heq => hne (map_seg_inj heq)))
    rw [lastOf_eq_firstOf _ hd']
    clear hd' hd hw h hnodes hpay
    induction ts with
    | nil => rfl
    | cons x ts ih =>
      obtain ⟨x, q⟩ := x
      simp only [List.map_cons, firstOf_cons, ih]
      by_cases hx : x = t
      · simp [hx]
      · rw [if_neg (fun e => hx (map_seg_inj e)), if_neg hx]
  have hpt : ∀ t : Tmpl, payloadAt tree (t.map seg) = some p ↔
      ((t, p) ∈ ts ∨ (t = [] ∧ p = zero ∧ [] ∉ ts.map (·.1))) := by
    intro t
    rw [hpay, hlast]
    have hnew : payloadAt (Node.new zero) (t.map seg) = if t = [] then some zero else none := by
      rw [payloadAt, Node.new, walk_newNode]
      by_cases h0 : t = []
      · simp [h0, newNode, payload]
      · simp [h0]
    rw [hnew]
    cases hf : firstOf ts t with
    | some q =>
      have hmem : (t, q) ∈ ts := mem_of_firstOf hf
      simp only [Option.some_or, Option.some.injEq]
      constructor
      · rintro rfl; exact Or.inl hmem
      · rintro (hp | ⟨rfl, -, hn⟩)
        · exact Option.some.inj (hf.symm.trans (firstOf_of_mem hd hp))
        · exact absurd (List.mem_map_of_mem hmem) hn
    | none =>
      have hn := firstOf_none hf
      simp only [Option.none_or]
      by_cases h0 : t = []
      · subst h0
        simp only [if_true, Option.some.injEq, true_and]
        constructor
        · rintro rfl; exact Or.inr ⟨rfl, hn⟩
        · rintro (hp | ⟨hp, -⟩)
          · exact absurd (List.mem_map_of_mem (f := (·.1)) hp) hn
          · exact hp.symm
      · simp only [h0, if_false, false_and, or_false, reduceCtorEq, false_iff]
        exact fun hp => hn (List.mem_map_of_mem (f := (·.1)) hp)
  have hsh : ∀ t : Tmpl, ((∀ i x s, t[i]? = some (Part.var x) → (sections path)[i]? = some s →
      walk tree ((t.take i ++ [Part.lit s]).map seg) = none) ↔ Unshadowed (ts.map (·.1)) t (sections path)) := by
    intro t
    have hnode : ∀ u : Tmpl, u ≠ [] → (walk tree (u.map seg) = none ↔ ∀ t' ∈ ts.map (·.1), ¬ u <+: t') := by
      intro u hu
      have hnew : walk (Node.new zero) (u.map seg) = none := by
        rw [Node.new, walk_newNode, if_neg (by simpa using hu)]
      rw [← Option.not_isSome_iff_eq_none, hnodes, hnew]
      simp only [Option.isSome_none, Bool.false_eq_true, false_or]
      constructor
      · intro hh t' ht' hp
        obtain ⟨x, hx, rfl⟩ := List.mem_map.1 ht'
        exact hh ⟨_, List.mem_map_of_mem hx, hp.map seg⟩
      · rintro hh ⟨x, hx, hp⟩
        obtain ⟨y, hy, rfl⟩ := List.mem_map.1 hx
        refine hh y.1 (List.mem_map_of_mem hy) ?_
        obtain ⟨r, hr⟩ := hp
        have e := congrArg (List.take u.length) hr
        rw [List.take_left' (by simp), ← List.map_take] at e
        rw [map_seg_inj e]
        exact List.take_prefix _ _
    unfold Unshadowed
    constructor
    · intro hh i x s hi hs; exact (hnode _ (by simp)).1 (hh i x s hi hs)
    · intro hh i x s hi hs; exact (hnode _ (by simp)).2 (hh i x s hi hs)
  constructor
  · rintro ⟨t, b, h1, h2, h3, h4⟩
    exact ⟨t, b, (hpt t).1 h1, h2, (hsh t).1 h3, h4⟩
  · rintro ⟨t, b, h1, h2, h3, h4⟩
    exact ⟨t, b, (hpt t).2 h1, h2, (hsh t).2 h3, h4⟩

/-- A registration of four templates, as a witness that the hypotheses of the theorems can be met. -/
private def sample : List (Tmpl × Nat) :=
  [([.lit b!"users", .var b!"id"], 1), ([.lit b!"users", .var b!"id", .lit b!"posts"], 2),
   ([.lit b!"users", .lit b!"me"], 3), ([.lit b!"files", .var [], .var b!"v"], 4)]

private theorem sample_writable : ∀ t ∈ sample, Writable t.1 := by
  intro t ht
  simp [sample] at ht
  rcases ht with rfl | rfl | rfl | rfl <;>
    exact ⟨by intro p hp; simp at hp; rcases hp with rfl | rfl | rfl <;> simp [Part.Valid], by simp, by simp⟩

example : (sample.map (·.1)).Nodup := by decide

/-- the sample can be registered -/
private theorem sample_registers :
    ∃ tree, register (Node.new 0) (sample.map (fun t => (text t.1, t.2))) = .ok tree := ⟨_, rfl⟩

/-- `/users/42/posts` is an instance of the second template, and literal sections do not get in its way -/
example : Instance [.lit b!"users", .var b!"id", .lit b!"posts"] (sections b!"users/42/posts") [(b!"id", b!"42")] ∧
    Unshadowed (sample.map (·.1)) [.lit b!"users", .var b!"id", .lit b!"posts"] (sections b!"users/42/posts") := by
  refine ⟨.lit (.var (by decide) (by decide) (.lit .nil)), ?_⟩
  intro i n s hi hs t' ht' hp
  match i with
  | 0 => simp at hi
  | 1 =>
    have : s = b!"42" := by
      have e : (sections b!"users/42/posts")[1]? = some b!"42" := by decide
      exact Option.some.inj (hs.symm.trans e)
    subst this
    simp [sample] at ht'
    rcases ht' with rfl | rfl | rfl | rfl <;> exact absurd hp (by decide)
  | 2 => simp at hi
  | i + 3 => simp at hi

/-- Literal sections take precedence over variables even if the rest of the path does not fit then: `/users/me/posts`
is an instance of `/users/{id}/posts`, and of no other template, but it is not found. -/
theorem C36_precedence_violation :
    ∃ (tree : Node Nat), register (Node.new 0) [(b!"/users/me", 1), (b!"/users/{id}/posts", 2)] = .ok tree ∧
      Instance [.lit b!"users", .var b!"id", .lit b!"posts"] (sections b!"users/me/posts") [(b!"id", b!"me")] ∧
      ∀ params, tree.«match» b!"/users/me/posts" params = .done none params :=
  ⟨_, rfl, .lit (.var (by decide) (by decide) (.lit .nil)), fun _ => rfl⟩

/-- The root is found though nobody registered it (which makes it 405 instead of 404). -/
theorem C36_root_violation :
    ∃ (tree : Node Nat), register (Node.new 0) [(b!"/users/{id}", 1)] = .ok tree ∧
      ∀ params, tree.«match» b!"/" params = .done (some 0) params :=
  ⟨_, rfl, fun _ => rfl⟩

/-- Templates which start with a variable are refused. -/
theorem C36_leading_variable_violation (n rest : Bytes) : parse (b!"/{" ++ n ++ rest) = .error .notWholeSection := by
  simp [parse, parseLoop, show ¬ (123 : Byte) = SLASH by decide]

/-- A path which is not found can leave values of variables behind. -/
theorem C36_leftover_parameters_violation :
    ∃ (tree : Node Nat), register (Node.new 0) [(b!"/users/{id}/posts", 1)] = .ok tree ∧
      tree.«match» b!"/users/42/photos" ({} : Storage) = .done none { pairs := [⟨b!"id", b!"42"⟩] } :=
  ⟨_, rfl, rfl⟩

/-- Different templates are not confused when they are parsed. -/
theorem C37_parse_partial (t t' : Tmpl) (h : Writable t) (h' : Writable t') (he : parse (text t) = parse (text t')) :
    t = t' := by
  rw [parse_text t h, parse_text t' h'] at he
  exact map_seg_inj (Except.ok.inj he)

/-- Requests never reach the handlers of a template they are not an instance of: if all templates have handlers of
their own (`p` tells which), a path for which the handlers of `t` are found is an instance of `t`. -/
theorem C37_never_crosses_partial (zero : π) (ts : List (Tmpl × π)) (hw : ∀ t ∈ ts, Writable t.1)
    (hd : (ts.map (·.1)).Nodup) (hp : (ts.map (·.2)).Nodup) (tree : Node π)
    (h : register (Node.new zero) (ts.map (fun t => (text t.1, t.2))) = .ok tree)
    (t : Tmpl) (p : π) (ht : (t, p) ∈ ts) (hz : p ≠ zero) (path : Bytes) (params params' : Storage)
    (hm : tree.«match» (47 :: path) params = .done (some p) params') :
    ∃ b, Instance t (sections path) b := by
  obtain ⟨t', b, h1, h2, -, -⟩ := (C36_match_partial zero ts hw hd tree h path params params' p).1 hm
  rcases h1 with h1 | ⟨-, h1, -⟩
  · have : t = t' := by
      clear hm h hd hw
      induction ts with
      | nil => simp at ht
      | cons x ts ih =>
        simp only [List.map_cons, List.nodup_cons] at hp
        rcases List.mem_cons.1 ht with rfl | ht'
        · rcases List.mem_cons.1 h1 with e | h1
          · exact (Prod.ext_iff.1 e).1.symm
          · exact absurd (List.mem_map_of_mem (f := (·.2)) h1) hp.1
        · rcases List.mem_cons.1 h1 with rfl | h1
          · exact absurd (List.mem_map_of_mem (f := (·.2)) ht') hp.1
          · exact ih hp.2 ht' h1
    exact ⟨b, this ▸ h2⟩
  · exact absurd h1 hz

/-- No registration is overwritten by others: with whatever other templates a template is registered, an instance of
it which literal sections do not claim finds its handlers. -/
theorem C37_never_overwritten_partial (zero : π) (ts : List (Tmpl × π)) (hw : ∀ t ∈ ts, Writable t.1)
    (hd : (ts.map (·.1)).Nodup) (tree : Node π)
    (h : register (Node.new zero) (ts.map (fun t => (text t.1, t.2))) = .ok tree)
    (t : Tmpl) (p : π) (ht : (t, p) ∈ ts) (path : Bytes) (b : List (Bytes × Bytes))
    (hi : Instance t (sections path) b) (hu : Unshadowed (ts.map (·.1)) t (sections path)) (params : Storage) :
    ∃ params', tree.«match» (47 :: path) params = .done (some p) params' :=
  ⟨_, (C36_match_partial zero ts hw hd tree h path params _ p).2 ⟨t, b, Or.inl ht, hi, hu, rfl⟩⟩

/-- A last section of one byte is ignored: every template is the same as the one with any such section added. (So that
`/a` is the root, and `/users/{id}/x` is `/users/{id}`.) -/
theorem C37_one_letter_violation (t : Tmpl) (h : Writable t) (c : Byte) (hc : c ≠ 47 ∧ c ≠ 123) :
    parse (text t ++ (if t = [] then [c] else [47, c])) = parse (text t) := by
  cases t with
  | nil => simp [text, parse, parseLoop, hc]
  | cons p ps =>
    rw [if_neg (by simp), parse_text _ h]
    obtain ⟨hv, hh, hl⟩ := h
    cases p with
    | var n => exact absurd rfl (hh n)
    | lit s =>
      have : text (.lit s :: ps) ++ [47, c] = 47 :: (s ++ (flat ps ++ [47, c])) := by simp [text, flat, Part.text]
      rw [this, parse, if_neg (by decide)]
      exact ((parseLoop_flat_letter ps (.lit s) [] hv c hc).2 s rfl).trans (by simp)

/-- The second registration replaces the first one. -/
theorem C37_overwritten_violation :
    ∃ (tree : Node Nat), register (Node.new 0) [(b!"/users/{id}", 1), (b!"/users/{id}/x", 2)] = .ok tree ∧
      tree.«match» b!"/users/42" ({} : Storage) = .done (some 2) { pairs := [⟨b!"id", b!"42"⟩] } :=
  ⟨_, rfl, rfl⟩

/-- Repeated slashes: the template `/a//b` is not refused, but the path `/a//b` does not find it. -/
theorem C36_double_slash_violation :
    ∃ (tree : Node Nat), register (Node.new 0) [(b!"/aa//bb", 1)] = .ok tree ∧
      ∀ params, tree.«match» b!"/aa//bb" params = .done none params :=
  ⟨_, rfl, fun _ => rfl⟩

/-- A template with an unfinished variable is taken for the one without it. -/
theorem C37_unfinished_violation (t : Tmpl) (h : Writable t) (ht : t ≠ []) (n : Bytes)
    (hn : ∀ c ∈ n, c ≠ 47 ∧ c ≠ 123 ∧ c ≠ 125) : parse (text t ++ b!"/{" ++ n) = parse (text t) := by
  rw [parse_text _ h]
  cases t with
  | nil => exact absurd rfl ht
  | cons p ps =>
    obtain ⟨hv, hh, hl⟩ := h
    cases p with
    | var n => exact absurd rfl (hh n)
    | lit s =>
      have : text (.lit s :: ps) ++ b!"/{" ++ n = 47 :: (s ++ (flat ps ++ 47 :: 123 :: n)) := by
        simp [text, flat, Part.text]
      rw [this, parse, if_neg (by decide)]
      exact ((parseLoop_flat_unfinished ps (.lit s) [] hv n hn).2 s rfl).trans (by simp)

/-! ### Which templates are accepted -/

private theorem pieces_ne (cur s : Bytes) : pieces cur s ≠ [] := by
  induction s generalizing cur with
  | nil => simp [pieces]
  | cons c cs ih => simp only [pieces]; split <;> simp [ih]

private theorem pieces_cons (cur s : Bytes) : ∃ x xs, pieces cur s = (cur ++ x) :: xs := by
  induction s generalizing cur with
  | nil => exact ⟨[], [], by simp [pieces]⟩
  | cons c cs ih =>
    simp only [pieces]
    split
    · exact ⟨[], pieces [] cs, by simp⟩
    · obtain ⟨x, xs, h⟩ := ih (cur ++ [c])
      exact ⟨[c] ++ x, xs, by rw [h]; simp⟩

private theorem whole_cons {s : Bytes} {ss : List Bytes} (h : ss ≠ []) :
    WholeSections (s :: ss) ↔ WholeSection s ∧ WholeSections ss := by
  cases ss with
  | nil => exact absurd rfl h
  | cons x xs => rfl

/-- The section being read, in each state. -/
private def Reading : PState → Bytes → Prop
  | .eStatic, sec => 123 ∉ sec ∧ sec ≠ []
  | .eSlash, sec => sec = []
  | .eDynamic, sec => ∃ n, sec = b!"{" ++ n ∧ 123 ∉ n ∧ 125 ∉ n
  | .eFinishDynamic, sec => ∃ n, sec = b!"{" ++ n ++ b!"}" ∧ 123 ∉ n ∧ 125 ∉ n

/-- Sections which are neither variables nor free of braces. -/
private theorem bad_first {s : Bytes} {ss : List Bytes} (h0 : 123 ∈ s) (h1 : ∀ n, s = b!"{" ++ n ++ b!"}" → 123 ∉ n → 125 ∈ n)
    (h2 : ∀ n, s = b!"{" ++ n → 123 ∉ n → 125 ∈ n) :
    ¬ WholeSections (s :: ss) := by
  have hw : ¬ WholeSection s := by
    rintro (h | ⟨n, h, a, b⟩)
    · exact h h0
    · exact b (h1 n h a)
  cases ss with
  | nil =>
    rintro (h | ⟨n, h, a, b⟩)
    · exact hw h
    · exact b (h2 n h a)
  | cons x xs => exact fun h => hw h.1

private theorem starts_other {sec x : Bytes} (h : 123 ∉ sec) (hn : sec ≠ []) (n : Bytes) : sec ++ x ≠ b!"{" ++ n := by
  cases sec with
  | nil => exact absurd rfl hn
  | cons c cs =>
    intro he
    simp only [List.cons_append, List.cons.injEq] at he
    exact h (by rw [he.1]; simp)

private theorem parseLoop_accepts (cs : Bytes) : ∀ (st : PState) (cur : Bytes) (segs : Template) (sec : Bytes), Reading st sec →
    ((∃ t, parseLoop st cur segs cs = .ok t) ↔ WholeSections (pieces sec cs)) := by
  induction cs with
  | nil =>
    intro st cur segs sec h
    simp only [pieces]
    constructor
    · intro _
      cases st with
      | eStatic => exact .inl (.inl h.1)
      | eSlash => simp only [Reading] at h; subst h; exact .inl (.inl (by simp))
      | eDynamic => exact .inr h
      | eFinishDynamic => exact .inl (.inr h)
    · intro _
      simp only [parseLoop]
      split <;> exact ⟨_, rfl⟩
  | cons c cs ih =>
    intro st cur segs sec h
    have hsl : SLASH = (47 : Byte) := rfl
    cases st with
    | eStatic =>
      simp only [parseLoop, pieces, hsl]
      by_cases h1 : c = 47
      · rw [if_pos h1, if_pos h1, whole_cons (pieces_ne _ _), ih .eSlash _ _ [] rfl]
        exact ⟨fun x => ⟨.inl h.1, x⟩, fun x => x.2⟩
      · rw [if_neg h1, if_neg h1]
        by_cases h2 : c = 123
        · rw [if_pos h2]
          obtain ⟨x, xs, hx⟩ := pieces_cons (sec ++ [c]) cs
          rw [hx]
          constructor
          · rintro ⟨t, ht⟩; cases ht
          · intro hw
            refine absurd hw (bad_first (by simp [h2]) ?_ ?_)
            · intro n hn
              rw [List.append_assoc, List.append_assoc] at hn
              exact absurd hn (starts_other h.1 h.2 _)
            · intro n hn
              rw [List.append_assoc] at hn
              exact absurd hn (starts_other h.1 h.2 _)
        · rw [if_neg h2]
          exact ih _ _ _ _ ⟨by simp [h.1, Ne.symm h2], by simp⟩
    | eSlash =>
      simp only [Reading] at h
      subst h
      simp only [parseLoop, pieces, hsl]
      by_cases h1 : c = 47
      · rw [if_pos h1, if_pos h1, whole_cons (pieces_ne _ _), ih .eSlash _ _ [] rfl]
        exact ⟨fun x => ⟨.inl (by simp), x⟩, fun x => x.2⟩
      · rw [if_neg h1, if_neg h1]
        by_cases h2 : c = 123
        · rw [if_pos h2]
          exact ih _ _ _ _ ⟨[], by simp [h2], by simp, by simp⟩
        · rw [if_neg h2]
          exact ih _ _ _ _ ⟨by simp [Ne.symm h2], by simp⟩
    | eDynamic =>
      obtain ⟨n, rfl, hn1, hn2⟩ := h
      simp only [parseLoop, pieces, hsl]
      by_cases h1 : c = 125
      · subst h1
        rw [if_pos rfl, if_neg (by decide)]
        exact ih _ _ _ _ ⟨n, rfl, hn1, hn2⟩
      · rw [if_neg h1]
        by_cases h2 : c = 47
        · subst h2
          rw [if_pos (.inl rfl), if_pos rfl, whole_cons (pieces_ne _ _)]
          constructor
          · rintro ⟨t, ht⟩; cases ht
          · rintro ⟨h | ⟨m, hm, -, -⟩, -⟩
            · simp at h
            · simp only [List.cons_append, List.nil_append, List.cons.injEq, true_and] at hm
              rw [hm] at hn2
              simp at hn2
        · by_cases h3 : c = 123
          · subst h3
            rw [if_pos (.inr rfl), if_neg h2]
            obtain ⟨x, xs, hx⟩ := pieces_cons (b!"{" ++ n ++ [123]) cs
            rw [hx]
            constructor
            · rintro ⟨t, ht⟩; cases ht
            · intro hw
              refine absurd hw (bad_first (by simp) ?_ ?_)
              · intro m hm hm1
                simp only [List.cons_append, List.nil_append, List.cons.injEq, true_and] at hm
                have : (123 : Byte) ∈ m ++ [125] := by rw [← hm]; simp
                simp [hm1] at this
              · intro m hm hm1
                simp only [List.cons_append, List.nil_append, List.cons.injEq, true_and] at hm
                rw [← hm] at hm1
                simp at hm1
          · rw [if_neg (by simp [h2, h3]), if_neg h2]
            exact ih _ _ _ _ ⟨n ++ [c], by simp, by simp [hn1, Ne.symm h3], by simp [hn2, Ne.symm h1]⟩
    | eFinishDynamic =>
      obtain ⟨n, rfl, hn1, hn2⟩ := h
      simp only [parseLoop, pieces, hsl]
      by_cases h1 : c = 47
      · rw [if_pos h1, if_pos h1, whole_cons (pieces_ne _ _), ih .eSlash _ _ [] rfl]
        exact ⟨fun x => ⟨.inr ⟨n, rfl, hn1, hn2⟩, x⟩, fun x => x.2⟩
      · rw [if_neg h1, if_neg h1]
        obtain ⟨x, xs, hx⟩ := pieces_cons (b!"{" ++ n ++ b!"}" ++ [c]) cs
        rw [hx]
        constructor
        · rintro ⟨t, ht⟩; cases ht
        · intro hw
          refine absurd hw (bad_first (by simp) ?_ ?_)
          · intro m hm _
            simp only [List.cons_append, List.nil_append, List.append_assoc, List.cons.injEq, true_and] at hm
            have := congrArg List.dropLast hm
            rw [List.dropLast_append_of_ne_nil (by simp)] at this
            simp only [List.dropLast_cons_cons, List.dropLast_concat] at this
            rw [← this]; simp
          · intro m hm _
            simp only [List.cons_append, List.nil_append, List.append_assoc, List.cons.injEq, true_and] at hm
            rw [← hm]; simp

/-- **C36**: exactly the templates are accepted which start with a slash and in which every variable is a whole section: no
section has an opening brace, except those which are `{name}` as a whole, the name having no braces. (The first section can be no variable; the last
one may be an unfinished one, see the `_violation` theorems.) -/
theorem C36_accepted (tmpl : Bytes) :
    (∃ t, parse tmpl = .ok t) ↔
      ∃ rest, tmpl = 47 :: rest ∧ 123 ∉ (pieces [] rest).headD [] ∧ WholeSections (pieces [] rest) := by
  cases tmpl with
  | nil => simp [parse]
  | cons c rest =>
    have hsl : SLASH = (47 : Byte) := rfl
    by_cases hc : c = 47
    case neg => simp [parse, hsl, hc]
    subst hc
    simp only [parse, hsl, ne_eq, not_true, if_false, List.cons.injEq, true_and, exists_eq_left']
    cases rest with
    | nil => simp [parseLoop, pieces, WholeSections, WholeSection]
    | cons c cs =>
      simp only [parseLoop, pieces, hsl]
      by_cases h1 : c = 47
      · rw [if_pos h1, if_pos h1, whole_cons (pieces_ne _ _), parseLoop_accepts _ .eSlash _ _ [] rfl]
        simp [WholeSection]
      · rw [if_neg h1, if_neg h1]
        obtain ⟨x, xs, hx⟩ := pieces_cons ([] ++ [c]) cs
        by_cases h2 : c = 123
        · rw [if_pos h2, hx]
          constructor
          · rintro ⟨t, ht⟩; cases ht
          · rintro ⟨h, -⟩; simp [h2] at h
        · rw [if_neg h2, parseLoop_accepts _ .eStatic _ _ ([] ++ [c]) ⟨by simp [Ne.symm h2], by simp⟩]
          refine ⟨fun h => ⟨?_, h⟩, fun h => h.2⟩
          rw [hx] at h ⊢
          intro hm
          refine absurd h (bad_first hm ?_ ?_)
          · intro n hn
            simp only [List.cons_append, List.nil_append, List.cons.injEq] at hn
            exact absurd hn.1 h2
          · intro n hn
            simp only [List.cons_append, List.nil_append, List.cons.injEq] at hn
            exact absurd hn.1 h2

/-- C36: text before or after a variable makes a template invalid, and so do braces within names. -/
example : (¬ ∃ t, parse b!"/users/{id}x" = .ok t) ∧ (¬ ∃ t, parse b!"/users/x{id}" = .ok t) ∧
    (¬ ∃ t, parse b!"/users/{a{b}" = .ok t) ∧ ∃ t, parse b!"/users/{id}/x}" = .ok t := by
  refine ⟨?_, ?_, ?_, _, rfl⟩ <;> · rintro ⟨t, h⟩; cases h

end Indigo.Props
