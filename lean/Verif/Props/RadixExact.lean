/-
C36 Dynamic routing, exactly: any texts of templates, any paths.
-/
import Verif.Props.Radix
import Verif.Spec.RadixExact

namespace Indigo.Props

open Indigo.Radix Indigo.Radix.Node Indigo.Spec.Radix

variable {π : Type}

private theorem pieces_ne (cur s : Bytes) : pieces cur s ≠ [] := by
  induction s generalizing cur with
  | nil => simp [pieces]
  | cons c cs ih => simp only [pieces]; split <;> simp [ih]

private theorem pieces_cons (cur s : Bytes) : ∃ x xs, pieces cur s = (cur ++ x) :: xs := by
  induction s generalizing cur with
  | nil => exact ⟨[], [], by simp [pieces]⟩
  | cons c cs ih =>
    simp only [pieces]
    split
    · exact ⟨[], pieces [] cs, by simp⟩
    · obtain ⟨x, xs, h⟩ := ih (cur ++ [c])
      exact ⟨[c] ++ x, xs, by rw [h]; simp⟩

private theorem starts_other {sec x : Bytes} (h : 123 ∉ sec) (hn : sec ≠ []) (n : Bytes) : sec ++ x ≠ b!"{" ++ n := by
  cases sec with
  | nil => exact absurd rfl hn
  | cons c cs =>
    intro he
    simp only [List.cons_append, List.cons.injEq] at he
    exact h (by rw [he.1]; simp)

private theorem m_lit (sl s : Bytes) (rest : List Bytes) (h : s ≠ []) (h' : 123 ∉ s) (hr : rest ≠ []) :
    meantFrom sl (s :: rest) = (meantFrom [] rest).map (.lit (sl ++ s) :: ·) := by
  simp only [meantFrom]
  rw [if_neg h, if_pos h', if_neg hr]

private theorem m_last (sl s : Bytes) (h : s ≠ []) (h' : 123 ∉ s) :
    meantFrom sl [s] = some (if 2 ≤ (sl ++ s).length then [.lit (sl ++ s)] else []) := by
  simp only [meantFrom]
  rw [if_neg h, if_pos h']
  rfl

private theorem m_var (sl n : Bytes) (rest : List Bytes) (h : 123 ∉ n) (h' : 125 ∉ n) :
    meantFrom sl ((b!"{" ++ n ++ b!"}") :: rest) = (meantFrom [] rest).map (.var n :: ·) := by
  have hn : ((b!"{" ++ n ++ b!"}").drop 1).dropLast = n := by simp
  simp only [meantFrom]
  rw [if_neg (by simp), if_neg (by simp), if_pos (by rw [hn]; exact ⟨rfl, h, h'⟩), hn]

private theorem m_open (sl n : Bytes) (rest : List Bytes) (h : 123 ∉ n) (h' : 125 ∉ n) :
    meantFrom sl ((b!"{" ++ n) :: rest) = if rest = [] then some [] else none := by
  simp only [meantFrom]
  rw [if_neg (by simp), if_neg (by simp), if_neg]
  · by_cases hr : rest = []
    · rw [if_pos hr, if_pos ⟨hr, by simp, by simpa using h, by simpa using h'⟩]
    · rw [if_neg hr, if_neg (fun x => hr x.1)]
  · rintro ⟨he, -, -⟩
    have := congrArg (fun l : Bytes => (125 : Byte) ∈ l) he
    simp [h'] at this

private theorem m_bad {s : Bytes} (sl : Bytes) (rest : List Bytes) (h0 : 123 ∈ s) (h1 : ∀ n, s = b!"{" ++ n ++ b!"}" → 123 ∉ n → 125 ∈ n)
    (h2 : ∀ n, s = b!"{" ++ n → 123 ∉ n → 125 ∈ n) : meantFrom sl (s :: rest) = none := by
  simp only [meantFrom]
  rw [if_neg (by rintro rfl; simp at h0), if_neg (by simpa using h0), if_neg (fun x => x.2.2 (h1 _ x.1 x.2.1)), if_neg (fun x => x.2.2.2 (h2 _ x.2.1 x.2.2.1))]

private theorem map_cons_iff {o : Option Tmpl} {p : Part} {segs T : Template} :
    (∃ t, o.map (p :: ·) = some t ∧ T = segs ++ t.map seg) ↔ ∃ t, o = some t ∧ T = (segs ++ [seg p]) ++ t.map seg := by
  cases o with
  | none => simp
  | some u => simp

private theorem parseLoop_meant (cs : Bytes) : ∀ (segs T : Template),
    (∀ sl, parseLoop .eSlash sl segs cs = .ok T ↔ ∃ t, meantFrom sl (pieces [] cs) = some t ∧ T = segs ++ t.map seg) ∧
    (∀ sl sec, sec ≠ [] → 123 ∉ sec →
      (parseLoop .eStatic (sl ++ sec) segs cs = .ok T ↔ ∃ t, meantFrom sl (pieces sec cs) = some t ∧ T = segs ++ t.map seg)) ∧
    (∀ sl n, 123 ∉ n → 125 ∉ n →
      (parseLoop .eDynamic n segs cs = .ok T ↔ ∃ t, meantFrom sl (pieces (b!"{" ++ n) cs) = some t ∧ T = segs ++ t.map seg)) ∧
    (∀ sl n cur, 123 ∉ n → 125 ∉ n →
      (parseLoop .eFinishDynamic cur (segs ++ [⟨n, true⟩]) cs = .ok T ↔
        ∃ t, meantFrom sl (pieces (b!"{" ++ n ++ b!"}") cs) = some t ∧ T = segs ++ t.map seg)) := by
  have hsl : SLASH = (47 : Byte) := rfl
  induction cs with
  | nil =>
    intro segs T
    refine ⟨?_, ?_, ?_, ?_⟩
    · intro sl
      simp [parseLoop, pieces, meantFrom, eq_comm]
    · intro sl sec h h'
      simp only [parseLoop, pieces, m_last sl sec h h', true_and]
      have : (sl ++ sec).length > 1 ↔ 2 ≤ (sl ++ sec).length := by omega
      by_cases hl : 2 ≤ (sl ++ sec).length
      · rw [if_pos (this.2 hl), if_pos hl]; simp [seg, eq_comm]
      · rw [if_neg (fun x => hl (this.1 x)), if_neg hl]; simp [eq_comm]
    · intro sl n h h'
      simp only [parseLoop, pieces, m_open sl n [] h h']
      simp [eq_comm]
    · intro sl n cur h h'
      simp only [parseLoop, pieces, m_var sl n [] h h', meantFrom]
      simp [seg, eq_comm]
  | cons c cs ih =>
    intro segs T
    refine ⟨?_, ?_, ?_, ?_⟩
    · intro sl
      simp only [parseLoop, pieces, hsl]
      by_cases h1 : c = 47
      · subst h1
        rw [if_pos rfl, if_pos rfl, (ih segs T).1]
        simp only [meantFrom, if_true]
      · rw [if_neg h1, if_neg h1]
        by_cases h2 : c = 123
        · subst h2
          rw [if_pos rfl]
          exact (ih segs T).2.2.1 sl [] (by simp) (by simp)
        · rw [if_neg h2]
          exact (ih segs T).2.1 sl [c] (by simp) (by simp [Ne.symm h2])
    · intro sl sec h h'
      simp only [parseLoop, pieces, hsl]
      by_cases h1 : c = 47
      · rw [if_pos h1, if_pos h1, (ih _ T).1, m_lit sl sec _ h h' (pieces_ne _ _), map_cons_iff]
        rfl
      · rw [if_neg h1, if_neg h1]
        by_cases h2 : c = 123
        · subst h2
          rw [if_pos rfl]
          obtain ⟨x, xs, hx⟩ := pieces_cons (sec ++ [123]) cs
          rw [hx, m_bad sl xs (by simp)]
          · simp
          · intro n hn
            rw [List.append_assoc, List.append_assoc] at hn
            exact absurd hn (starts_other h' h _)
          · intro n hn
            rw [List.append_assoc] at hn
            exact absurd hn (starts_other h' h _)
        · rw [if_neg h2, List.append_assoc]
          exact (ih segs T).2.1 sl (sec ++ [c]) (by simp) (by simp [h', Ne.symm h2])
    · intro sl n h h'
      simp only [parseLoop, pieces, hsl]
      by_cases h1 : c = 125
      · subst h1
        rw [if_pos rfl, if_neg (by decide)]
        exact (ih segs T).2.2.2 sl n n h h'
      · rw [if_neg h1]
        by_cases h2 : c = 47
        · subst h2
          rw [if_pos (.inl rfl), if_pos rfl, m_open sl n _ h h', if_neg (pieces_ne _ _)]
          simp
        · by_cases h3 : c = 123
          · subst h3
            rw [if_pos (.inr rfl), if_neg h2]
            obtain ⟨x, xs, hx⟩ := pieces_cons (b!"{" ++ n ++ [123]) cs
            rw [hx, m_bad sl xs (by simp)]
            · simp
            · intro m hm hm1
              simp only [List.cons_append, List.nil_append, List.cons.injEq, true_and] at hm
              have : (123 : Byte) ∈ m ++ [125] := by rw [← hm]; simp
              simp [hm1] at this
            · intro m hm hm1
              simp only [List.cons_append, List.nil_append, List.cons.injEq, true_and] at hm
              rw [← hm] at hm1
              simp at hm1
          · rw [if_neg (by simp [h2, h3]), if_neg h2]
            have := (ih segs T).2.2.1 sl (n ++ [c]) (by simp [h, Ne.symm h3]) (by simp [h', Ne.symm h1])
            rw [List.append_assoc]
            exact this
    · intro sl n cur h h'
      simp only [parseLoop, pieces, hsl]
      by_cases h1 : c = 47
      · rw [if_pos h1, if_pos h1, (ih _ T).1, m_var sl n _ h h', map_cons_iff]
        rfl
      · rw [if_neg h1, if_neg h1]
        obtain ⟨x, xs, hx⟩ := pieces_cons (b!"{" ++ n ++ b!"}" ++ [c]) cs
        rw [hx, m_bad sl xs (by simp)]
        · simp
        · intro m hm _
          simp only [List.cons_append, List.nil_append, List.append_assoc, List.cons.injEq, true_and] at hm
          have := congrArg List.dropLast hm
          rw [List.dropLast_append_of_ne_nil (by simp)] at this
          simp only [List.dropLast_cons_cons, List.dropLast_concat] at this
          rw [← this]; simp
        · intro m hm _
          simp only [List.cons_append, List.nil_append, List.append_assoc, List.cons.injEq, true_and] at hm
          rw [← hm]; simp

private theorem parseLoop_first (cs : Bytes) : ∀ (sec : Bytes) (T : Template), 123 ∉ sec →
    (parseLoop .eStatic sec [] cs = .ok T ↔
      ∃ t, (match pieces sec cs with
        | [] => none
        | s :: rest =>
          if 123 ∈ s then none
          else if rest = [] then some (if 2 ≤ s.length then [Part.lit s] else [])
          else (meantFrom [] rest).map (.lit s :: ·)) = some t ∧ T = t.map seg) := by
  have hsl : SLASH = (47 : Byte) := rfl
  induction cs with
  | nil =>
    intro sec T h
    simp only [parseLoop, pieces, true_and]
    rw [if_neg h, if_pos trivial]
    by_cases hl : 2 ≤ sec.length
    · rw [if_pos (by omega), if_pos hl]; simp [seg, eq_comm]
    · rw [if_neg (by omega), if_neg hl]; simp [eq_comm]
  | cons c cs ih =>
    intro sec T h
    simp only [parseLoop, pieces, hsl]
    by_cases h1 : c = 47
    · rw [if_pos h1, if_pos h1, (parseLoop_meant cs _ T).1]
      simp only [if_neg h, if_neg (pieces_ne _ _)]
      have := map_cons_iff (o := meantFrom [] (pieces [] cs)) (p := .lit sec) (segs := []) (T := T)
      simpa [seg] using this.symm
    · rw [if_neg h1, if_neg h1]
      by_cases h2 : c = 123
      · subst h2
        rw [if_pos rfl]
        obtain ⟨x, xs, hx⟩ := pieces_cons (sec ++ [123]) cs
        rw [hx]
        simp
      · rw [if_neg h2]
        exact ih (sec ++ [c]) T (by simp [h, Ne.symm h2])

theorem parse_meant_iff (tmpl : Bytes) (T : Template) : parse tmpl = .ok T ↔ ∃ t, meant tmpl = some t ∧ T = t.map seg := by
  cases tmpl with
  | nil => simp [parse, meant]
  | cons c cs =>
    have hsl : SLASH = (47 : Byte) := rfl
    by_cases hc : c = 47
    · simp only [parse, meant, hsl, hc, ne_eq, not_true, if_false]
      exact parseLoop_first cs [] T (by simp)
    · simp [parse, meant, hsl, hc]

/-- **C36.** Every text is refused, or taken for a template, as the specification (`meant`) says. -/
theorem C36_meant (tmpl : Bytes) :
    (∀ t : Tmpl, meant tmpl = some t → parse tmpl = .ok (t.map (fun | .lit s => ⟨s, false⟩ | .var n => ⟨n, true⟩))) ∧
    (meant tmpl = none → ∃ e, parse tmpl = .error e) := by
  constructor
  · intro t h
    exact (parse_meant_iff tmpl _).2 ⟨t, h, by congr 1⟩
  · intro h
    cases hp : parse tmpl with
    | error e => exact ⟨e, rfl⟩
    | ok T =>
      obtain ⟨t, ht, -⟩ := (parse_meant_iff tmpl T).1 hp
      rw [h] at ht
      cases ht

/-- Texts of all kinds, as a witness: an ordinary one, a letter at the end, repeated slashes, an unfinished variable, a variable which is not a whole section. -/
example : meant b!"/users/{id}/posts" = some [.lit b!"users", .var b!"id", .lit b!"posts"] ∧ meant b!"/users/{id}/x" = some [.lit b!"users", .var b!"id"] ∧
    meant b!"/aa//bb" = some [.lit b!"aa", .lit b!"/bb"] ∧ meant b!"/aa/{x}/{y" = some [.lit b!"aa", .var b!"x"] ∧ meant b!"/aa/b{x}" = none := by decide

theorem register_meant (ts : List (Tmpl × π)) : ∀ (texts : List (Bytes × π)) (n : Node π),
    texts.map (fun x => (meant x.1, x.2)) = ts.map (fun x => (some x.1, x.2)) → register n texts = insertAll n (ts.map (fun t => (t.1.map seg, t.2))) := by
  induction ts with
  | nil =>
    intro texts n h
    cases texts with
    | nil => rfl
    | cons x xs => simp at h
  | cons t ts ih =>
    intro texts n h
    cases texts with
    | nil => simp at h
    | cons x xs =>
      obtain ⟨x, q⟩ := x
      obtain ⟨t, p⟩ := t
      simp only [List.map_cons, List.cons.injEq, Prod.mk.injEq] at h
      obtain ⟨⟨h1, rfl⟩, h2⟩ := h
      simp only [List.map_cons, register, insertAll, (parse_meant_iff x _).2 ⟨t, h1, rfl⟩]
      cases insert n (t.map seg) q with
      | error e => rfl
      | ok m => exact ih xs m h2

theorem meant_all : ∀ (texts : List (Bytes × π)) (n tree : Node π), register n texts = .ok tree →
    ∃ ts : List (Tmpl × π), texts.map (fun x => (meant x.1, x.2)) = ts.map (fun x => (some x.1, x.2)) := by
  intro texts
  induction texts with
  | nil => exact fun _ _ _ => ⟨[], rfl⟩
  | cons x xs ih =>
    intro n tree h
    obtain ⟨x, p⟩ := x
    simp only [register] at h
    cases hp : parse x with
    | error e => rw [hp] at h; simp at h
    | ok T =>
      rw [hp] at h
      simp only at h
      obtain ⟨t, ht, rfl⟩ := (parse_meant_iff x T).1 hp
      cases hi : insert n (t.map seg) p with
      | error e => rw [hi] at h; simp at h
      | ok m =>
        rw [hi] at h
        obtain ⟨ts, hts⟩ := ih m tree h
        exact ⟨(t, p) :: ts, by simp [ht, hts]⟩

/-- **C36.** Routes are accepted exactly if each one can be read as a template, and no two of these have variables of different names at the same place. -/
theorem C36_registration_exactly (zero : π) (texts : List (Bytes × π)) :
    (∃ tree, register (Node.new zero) texts = .ok tree) ↔
      ∃ ts : List (Tmpl × π), texts.map (fun x => (meant x.1, x.2)) = ts.map (fun x => (some x.1, x.2)) ∧
        ts.Pairwise (fun t t' => Compatible t.1 t'.1) := by
  have key : ∀ ts : List (Tmpl × π), texts.map (fun x => (meant x.1, x.2)) = ts.map (fun x => (some x.1, x.2)) →
      ((∃ tree, register (Node.new zero) texts = .ok tree) ↔ ts.Pairwise (fun t t' => Compatible t.1 t'.1)) := by
    intro ts h
    rw [register_meant ts texts _ h, insertAll_ok_iff _ (Node.new zero) (wf_newNode _), pairwise_compatible]
    constructor
    · exact fun h => h.2
    · refine fun h => ⟨?_, h⟩
      intro t _ i x y _ hs
      rw [Node.new, walk_newNode] at hs
      simp at hs
  constructor
  · rintro ⟨tree, h⟩
    obtain ⟨ts, hts⟩ := meant_all texts _ _ h
    exact ⟨ts, hts, (key ts hts).1 ⟨tree, h⟩⟩
  · rintro ⟨ts, hts, h⟩
    exact (key ts hts).2 h

private theorem lastFor_eq (ts : List (Tmpl × π)) (t : Tmpl) : lastOf (ts.map (fun t => (t.1.map seg, t.2))) (t.map seg) = lastFor ts t := by
  have h : ∀ r : List (Tmpl × π), lastOf (r.reverse.map (fun t => (t.1.map seg, t.2))) (t.map seg) = lastFor r.reverse t := by
    intro r
    induction r with
    | nil => rfl
    | cons x r ih =>
      obtain ⟨x, p⟩ := x
      rw [List.reverse_cons, List.map_append, List.map_cons, List.map_nil, lastOf_append, ih]
      simp only [lastFor, List.filter_append]
      by_cases hx : x = t
      · simp [hx]
      · rw [if_neg (fun e => hx (map_seg_inj e))]
        simp [hx]
  have := h ts.reverse
  rwa [List.reverse_reverse] at this

/-- **C36.** Once routes are registered, whatever their texts: a path finds the handlers `p`, with these parameters, exactly if it is an instance of a template `t` which `p` was the last one to be registered with
(the root has `zero` if it is not registered), and literal sections do not take precedence. -/
theorem C36_match_exactly (zero : π) (texts : List (Bytes × π)) (ts : List (Tmpl × π))
    (hts : texts.map (fun x => (meant x.1, x.2)) = ts.map (fun x => (some x.1, x.2))) (tree : Node π)
    (h : register (Node.new zero) texts = .ok tree) (path : Bytes) (params params' : Storage) (p : π) :
    tree.«match» (47 :: path) params = .done (some p) params' ↔
      ∃ t b, (lastFor ts t = some p ∨ (t = [] ∧ p = zero ∧ [] ∉ ts.map (·.1))) ∧
        Instance t (sections path) b ∧ Unshadowed (ts.map (·.1)) t (sections path) ∧
        params' = { params with pairs := params.pairs ++ b.map (fun e => ⟨e.1, e.2⟩) } := by
  rw [register_meant ts texts _ hts] at h
  obtain ⟨hwf, hpay, hnodes⟩ := insertAll_spec _ (Node.new zero) _ (wf_newNode _) h
  have hm : tree.«match» (47 :: path) params =
      .done (greedy tree (sections path) params).1 (greedy tree (sections path) params).2 := by
    simp only [«match»]
    rw [if_neg (by decide), matchLoop_eq _ _ _ _ (Nat.le_refl _)]
  rw [hm]
  have e : (MatchResult.done (greedy tree (sections path) params).1 (greedy tree (sections path) params).2 =
      .done (some p) params') ↔ greedy tree (sections path) params = (some p, params') := by
    simp [Prod.ext_iff]
  rw [e, greedy_iff _ _ _ _ _ hwf]
  have hpt : ∀ t : Tmpl, payloadAt tree (t.map seg) = some p ↔
      (lastFor ts t = some p ∨ (t = [] ∧ p = zero ∧ [] ∉ ts.map (·.1))) := by
    intro t
    rw [hpay, lastFor_eq]
    have hnew : payloadAt (Node.new zero) (t.map seg) = if t = [] then some zero else none := by
      rw [payloadAt, Node.new, walk_newNode]
      by_cases h0 : t = []
      · simp [h0, newNode, payload]
      · simp [h0]
    rw [hnew]
    have hin : ∀ u : Tmpl, lastFor ts u = none ↔ u ∉ ts.map (·.1) := by
      intro u
      simp only [lastFor, Option.map_eq_none_iff, List.getLast?_eq_none_iff, List.filter_eq_nil_iff, decide_eq_true_eq, List.mem_map, not_exists, not_and]
    cases hf : lastFor ts t with
    | some q =>
      simp only [Option.some_or, Option.some.injEq]
      constructor
      · exact Or.inl
      · rintro (hp | ⟨rfl, -, hn⟩)
        · exact hp
        · rw [(hin _).2 hn] at hf
          cases hf
    | none =>
      have hn := (hin t).1 hf
      simp only [Option.none_or]
      by_cases h0 : t = []
      · subst h0
        simp only [if_true, Option.some.injEq, true_and, reduceCtorEq, false_or]
        exact ⟨fun e => ⟨e.symm, hn⟩, fun e => e.1.symm⟩
      · simp [h0]
  have hsh : ∀ t : Tmpl, ((∀ i x s, t[i]? = some (Part.var x) → (sections path)[i]? = some s →
      walk tree ((t.take i ++ [Part.lit s]).map seg) = none) ↔ Unshadowed (ts.map (·.1)) t (sections path)) := by
    intro t
    have hnode : ∀ u : Tmpl, u ≠ [] → (walk tree (u.map seg) = none ↔ ∀ t' ∈ ts.map (·.1), ¬ u <+: t') := by
      intro u hu
      have hnew : walk (Node.new zero) (u.map seg) = none := by
        rw [Node.new, walk_newNode, if_neg (by simpa using hu)]
      rw [← Option.not_isSome_iff_eq_none, hnodes, hnew]
      simp only [Option.isSome_none, Bool.false_eq_true, false_or]
      constructor
      · intro hh t' ht' hp
        obtain ⟨x, hx, rfl⟩ := List.mem_map.1 ht'
        exact hh ⟨_, List.mem_map_of_mem hx, hp.map seg⟩
      · rintro hh ⟨x, hx, hp⟩
        obtain ⟨y, hy, rfl⟩ := List.mem_map.1 hx
        refine hh y.1 (List.mem_map_of_mem hy) ?_
        obtain ⟨r, hr⟩ := hp
        have e := congrArg (List.take u.length) hr
        rw [List.take_left' (by simp), ← List.map_take] at e
        rw [map_seg_inj e]
        exact List.take_prefix _ _
    unfold Unshadowed
    constructor
    · intro hh i x s hi hs; exact (hnode _ (by simp)).1 (hh i x s hi hs)
    · intro hh i x s hi hs; exact (hnode _ (by simp)).2 (hh i x s hi hs)
  constructor
  · rintro ⟨t, b, h1, h2, h3, h4⟩
    exact ⟨t, b, (hpt t).1 h1, h2, (hsh t).1 h3, h4⟩
  · rintro ⟨t, b, h1, h2, h3, h4⟩
    exact ⟨t, b, (hpt t).2 h1, h2, (hsh t).2 h3, h4⟩

/-- What is left of a search which finds nothing. -/
private theorem greedy_none : ∀ (ss : List Bytes) (n : Node π) (params params' : Storage), Wf n → greedy n ss params = (none, params') →
    ∃ (t : Tmpl) (b : List (Bytes × Bytes)), (walk n (t.map seg)).isSome = true ∧ Instance t (ss.take t.length) b ∧ params' = bind params b := by
  intro ss
  induction ss with
  | nil =>
    intro n params params' hw h
    simp only [greedy, Prod.mk.injEq] at h
    exact ⟨[], [], rfl, .nil, by rw [bind_nil]; exact h.2.symm⟩
  | cons s ss ih =>
    intro n params params' hw h
    rw [greedy] at h
    cases hl : n.statics.lookup s with
    | some m =>
      have hproc : processSegment params s n = (some m, params) := by simp [processSegment, hl]
      rw [hproc] at h
      obtain ⟨t, b, h1, h2, h3⟩ := ih m params params' (hw.static hl) h
      exact ⟨.lit s :: t, b, by simpa [walk, seg, hl] using h1, .lit h2, h3⟩
    | none =>
      by_cases hd : n.isWildcard = true ∧ s ≠ []
      · obtain ⟨hi, hs⟩ := hd
        have hlen : ¬ s.length = 0 := by simpa using hs
        obtain ⟨m, hm⟩ := Option.isSome_iff_exists.1 (hw.self.2.1 hi)
        have hproc : processSegment params s n =
            (some m, if n.wildcard.length > 0 then params.add n.wildcard s else params) := by
          simp [processSegment, hl, hi, hlen, hm]
        rw [hproc] at h
        obtain ⟨t, b, h1, h2, h3⟩ := ih m _ params' (hw.next hi hm) h
        have hstep : walk n ((Part.var n.wildcard :: t).map seg) = walk m (t.map seg) := by simp [walk, seg, hi, hm]
        by_cases hw0 : n.wildcard = []
        · refine ⟨.var n.wildcard :: t, b, by rw [hstep]; exact h1, ?_, by simpa [hw0] using h3⟩
          rw [hw0]; exact .anonymous hs h2
        · refine ⟨.var n.wildcard :: t, (n.wildcard, s) :: b, by rw [hstep]; exact h1, .var hw0 hs h2, ?_⟩
          rw [if_pos (List.length_pos_iff.2 hw0), bind_add] at h3
          exact h3
      · have hproc : processSegment params s n = (none, params) := by
          simp only [processSegment, hl]
          rw [if_pos]
          by_cases hi : n.isWildcard = true
          · have : s = [] := by simpa [hi] using hd
            simp [this]
          · simp [hi]
        rw [hproc] at h
        simp only [Prod.mk.injEq, true_and] at h
        exact ⟨[], [], rfl, .nil, by rw [bind_nil]; exact h.symm⟩

/-- **C36.** If nothing is found, the parameters are as they were, or values of the variables in the beginning of a template have been added: the path begins with an instance of it. -/
theorem C36_left (zero : π) (texts : List (Bytes × π)) (ts : List (Tmpl × π))
    (hts : texts.map (fun x => (meant x.1, x.2)) = ts.map (fun x => (some x.1, x.2))) (tree : Node π)
    (h : register (Node.new zero) texts = .ok tree) (path : Bytes) (params params' : Storage)
    (hm : tree.«match» (47 :: path) params = .done none params') :
    params' = params ∨ ∃ t ∈ ts.map (·.1), ∃ i b, Instance (t.take i) ((sections path).take i) b ∧
      params' = { params with pairs := params.pairs ++ b.map (fun e => ⟨e.1, e.2⟩) } := by
  rw [register_meant ts texts _ hts] at h
  obtain ⟨hwf, -, hnodes⟩ := insertAll_spec _ (Node.new zero) _ (wf_newNode _) h
  simp only [«match»] at hm
  rw [if_neg (by decide), matchLoop_eq _ _ _ _ (Nat.le_refl _)] at hm
  simp only [MatchResult.done.injEq] at hm
  obtain ⟨t, b, h1, h2, h3⟩ := greedy_none (sections path) tree params params' hwf (by rw [← hm.1, ← hm.2])
  by_cases h0 : t = []
  · subst h0
    cases h2
    rw [bind_nil] at h3
    exact .inl h3
  · refine .inr ?_
    have hnew : walk (Node.new zero) (t.map seg) = none := by
      rw [Node.new, walk_newNode, if_neg (by simpa using h0)]
    rcases (hnodes _).1 h1 with h1 | ⟨x, hx, hp⟩
    · rw [hnew] at h1; simp at h1
    · obtain ⟨y, hy, rfl⟩ := List.mem_map.1 hx
      refine ⟨y.1, List.mem_map_of_mem hy, t.length, b, ?_, h3⟩
      obtain ⟨r, hr⟩ := hp
      have e := congrArg (List.take t.length) hr
      rw [List.take_left' (by simp), ← List.map_take] at e
      rw [← map_seg_inj e]
      exact h2

/-- a search which leaves a value -/
example : ∃ (tree : Node Nat), register (Node.new 0) [(b!"/users/{id}/posts", 1)] = .ok tree ∧
    tree.«match» b!"/users/42/photos" ({} : Storage) = .done none { pairs := [⟨b!"id", b!"42"⟩] } := ⟨_, rfl, rfl⟩

/-- Routes of all kinds, as a witness: the second one replaces the first one, and the third one cannot be found by any path. -/
private def odd : List (Bytes × Nat) := [(b!"/users/{id}", 1), (b!"/users/{id}/x", 2), (b!"/aa//bb", 3), (b!"/users/me", 4)]

private def oddMeant : List (Tmpl × Nat) :=
  [([.lit b!"users", .var b!"id"], 1), ([.lit b!"users", .var b!"id"], 2), ([.lit b!"aa", .lit b!"/bb"], 3), ([.lit b!"users", .lit b!"me"], 4)]

example : odd.map (fun x => (meant x.1, x.2)) = oddMeant.map (fun x => (some x.1, x.2)) ∧ (∃ tree, register (Node.new 0) odd = .ok tree) ∧
    lastFor oddMeant [.lit b!"users", .var b!"id"] = some 2 ∧ Instance [.lit b!"users", .var b!"id"] (sections b!"users/42") [(b!"id", b!"42")] :=
  ⟨by decide, ⟨_, rfl⟩, by decide, .lit (.var (by decide) (by decide) .nil)⟩

example : ∀ t t' : Tmpl, t ∈ oddMeant.map (·.1) → t' ∈ oddMeant.map (·.1) → t = t' ∨ Compatible t t' := by
  intro t t' h h'
  simp only [oddMeant, List.map_cons, List.map_nil, List.mem_cons, List.not_mem_nil, or_false] at h h'
  rcases h with rfl | rfl | rfl | rfl <;> rcases h' with rfl | rfl | rfl | rfl <;>
    first
    | exact .inl rfl
    | exact .inr (fun i x y hi hx hy => by
        match i with
        | 0 => simp at hx
        | 1 => simp at hi hx hy
        | i + 2 => simp at hx)

private theorem sections_noslash : ∀ (path cur : Bytes), 47 ∉ cur → ∀ s ∈ sectionsFrom cur path, (47 : Byte) ∉ s := by
  intro path
  induction path with
  | nil =>
    intro cur hc s hs
    simp only [sectionsFrom] at hs
    split at hs
    · simp at hs
    · simp only [List.mem_singleton] at hs; rw [hs]; exact hc
  | cons c cs ih =>
    intro cur hc s hs
    simp only [sectionsFrom] at hs
    split at hs
    · rcases List.mem_cons.1 hs with rfl | hs
      · exact hc
      · exact ih [] (by simp) s hs
    · rename_i h
      exact ih (cur ++ [c]) (by simp [hc, Ne.symm h]) s hs

private theorem instance_lits {t : Tmpl} {ss : List Bytes} {b : List (Bytes × Bytes)} (h : Instance t ss b) : ∀ s, Part.lit s ∈ t → s ∈ ss := by
  induction h with
  | nil => simp
  | lit _ ih =>
    intro s hs
    rcases List.mem_cons.1 hs with he | hs
    · cases he; simp
    · exact List.mem_cons_of_mem _ (ih s hs)
  | var _ _ _ ih =>
    intro s hs
    rcases List.mem_cons.1 hs with he | hs
    · cases he
    · exact List.mem_cons_of_mem _ (ih s hs)
  | anonymous _ _ ih =>
    intro s hs
    rcases List.mem_cons.1 hs with he | hs
    · cases he
    · exact List.mem_cons_of_mem _ (ih s hs)

private theorem slashes_unreachable (t : Tmpl) (s path : Bytes) (b : List (Bytes × Bytes)) (h : Part.lit (47 :: s) ∈ t) : ¬ Instance t (sections path) b := by
  intro hi
  exact sections_noslash path [] (by simp) _ (instance_lits hi _ h) (by simp)

/-- **C36, violated.** A route whose text has several slashes in front of a literal section is accepted, and there is no path at all which finds its handlers. -/
theorem C36_slashes_unreachable_violation :
    ∃ tree : Node Nat, register (Node.new 0) [(b!"/users/{id}//posts", 1)] = .ok tree ∧
      ∀ path params params', tree.«match» (47 :: path) params ≠ .done (some 1) params' := by
  refine ⟨_, rfl, fun path params params' h => ?_⟩
  obtain ⟨t, b, ht, hi, -, -⟩ := (C36_match_exactly 0 [(b!"/users/{id}//posts", 1)] [([.lit b!"users", .var b!"id", .lit b!"/posts"], 1)] (by decide) _ rfl path params params' 1).1 h
  rcases ht with ht | ⟨-, ht, -⟩
  · simp only [lastFor, List.filter_cons, List.filter_nil] at ht
    split at ht
    · rename_i he
      simp only [decide_eq_true_eq] at he
      subst he
      exact slashes_unreachable _ b!"posts" path b (by simp) hi
    · simp at ht
  · cases ht

example : meant b!"/users/{id}//posts" = some [.lit b!"users", .var b!"id", .lit b!"/posts"] := by decide

end Indigo.Props
