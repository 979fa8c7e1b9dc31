import Verif.Model.Radix
import Verif.Proofs.Maps
import Verif.Spec.Radix

namespace Indigo

theorem get?_eq_firstOf {κ α : Type} [DecidableEq κ] (m : GoMap κ α) (k : κ) : m.get? k = firstOf m k := by
  induction m with
  | nil => rfl
  | cons e m ih => obtain ⟨a, b⟩ := e; rw [GoMap.get?, firstOf_cons, ih]

theorem mem_of_firstOf {κ α : Type} [DecidableEq κ] {m : List (κ × α)} {k : κ} {v : α} (h : firstOf m k = some v) :
    (k, v) ∈ m := GoMap.mem_of_get? m (by rw [get?_eq_firstOf, h])

theorem firstOf_of_mem {κ α : Type} [DecidableEq κ] {m : List (κ × α)} {k : κ} {v : α} (hd : (m.map (·.1)).Nodup)
    (h : (k, v) ∈ m) : firstOf m k = some v := by rw [← get?_eq_firstOf, GoMap.get?_of_mem m hd h]

theorem firstOf_none {κ α : Type} [DecidableEq κ] {m : List (κ × α)} {k : κ} (h : firstOf m k = none) :
    k ∉ m.map (·.1) := (GoMap.get?_eq_none m k).1 (by rw [get?_eq_firstOf, h])

namespace ArrMap
variable {α : Type}

/-- In the array no key occurs twice. -/
def Distinct (a : ArrMap α) : Prop := a.arrOverflow = false → (a.arr.map (·.1)).Nodup

theorem firstOf_update (l : List (Bytes × α)) (k k' : Bytes) (v : α) :
    firstOf (l.map (fun e => if e.1 = k then (e.1, v) else e)) k' =
      if k = k' ∧ (firstOf l k).isSome then some v else firstOf l k' := by
  induction l with
  | nil => simp [firstOf]
  | cons e l ih =>
    obtain ⟨x, w⟩ := e
    simp only [List.map_cons, firstOf_cons, ih]
    by_cases h1 : x = k
    · subst h1
      by_cases h2 : x = k' <;> simp [h2]
    · by_cases h2 : x = k'
      · subst h2
        have : ¬ k = x := fun e => h1 e.symm
        simp [h1, this]
      · simp [h1, h2]

theorem lookup_eq (a : ArrMap α) (k : Bytes) :
    a.lookup k = if a.arrOverflow then firstOf a.m k else firstOf a.arr k := by
  unfold lookup
  cases h : a.arrOverflow <;> simp [scan_eq, get?_eq_firstOf]

theorem lookup_update (a : ArrMap α) (k k' : Bytes) (v : α) :
    (a.update k v).lookup k' = if k = k' ∧ (a.lookup k).isSome then some v else a.lookup k' := by
  simp only [lookup_eq, update]
  cases h : a.arrOverflow
  · simp only [Bool.false_eq_true, if_false]
    exact firstOf_update _ _ _ _
  · simp only [if_true]
    exact firstOf_update _ _ _ _

theorem distinct_update (a : ArrMap α) (k : Bytes) (v : α) (h : a.Distinct) : (a.update k v).Distinct := by
  intro ho
  have := h ho
  simp only [update, List.map_map]
  have heq : ((fun x : Bytes × α => x.1) ∘ fun e => if e.1 = k then (e.1, v) else e) = (fun x => x.1) := by
    funext e
    simp only [Function.comp]
    split <;> rfl
  rw [heq]; exact this

theorem firstOf_none_iff (l : List (Bytes × α)) (k : Bytes) : firstOf l k = none ↔ k ∉ l.map (·.1) := by
  rw [← get?_eq_firstOf, GoMap.get?_eq_none]

theorem lookup_add (a : ArrMap α) (k k' : Bytes) (v : α) (hd : a.Distinct) (hn : a.lookup k = none) :
    (a.add k v).lookup k' = if k = k' then some v else a.lookup k' := by
  rw [lookup_eq] at hn
  cases h : a.arrOverflow
  · rw [h] at hn
    simp only [Bool.false_eq_true, if_false] at hn
    by_cases hl : a.arr.length + 1 > loadfactor
    · rw [add, if_neg (by simp [h]), if_pos hl, lookup_eq, lookup_eq, h]
      simp only [escapeToMap, if_true, Bool.false_eq_true, if_false]
      rw [← get?_eq_firstOf, GoMap.get?_set, get?_foldl_set, lastOf_eq_firstOf _ (hd h)]
    · rw [add, if_neg (by simp [h]), if_neg hl, lookup_eq, lookup_eq]
      simp only [h, Bool.false_eq_true, if_false]
      rw [firstOf_append, firstOf_cons]
      by_cases hk : k = k'
      · subst hk; simp [hn]
      · simp [hk, firstOf]
  · rw [add, if_pos (by simp [h]), lookup_eq, lookup_eq]
    simp only [h, if_true]
    rw [← get?_eq_firstOf, GoMap.get?_set, get?_eq_firstOf]

theorem distinct_add (a : ArrMap α) (k : Bytes) (v : α) (hd : a.Distinct) (hn : a.lookup k = none) :
    (a.add k v).Distinct := by
  intro ho
  cases h : a.arrOverflow
  · rw [lookup_eq, h] at hn
    simp only [Bool.false_eq_true, if_false] at hn
    by_cases hl : a.arr.length + 1 > loadfactor
    · rw [add, if_neg (by simp [h]), if_pos hl] at ho
      simp [escapeToMap] at ho
    · rw [add, if_neg (by simp [h]), if_neg hl]
      simp only [List.map_append, List.map_cons, List.map_nil]
      have := (firstOf_none_iff _ _).1 hn
      exact List.nodup_append.2 ⟨hd h, by simp, by
        intro x hx y hy; simp at hy; subst hy; rintro rfl; exact this hx⟩
  · rw [add, if_pos (by simp [h])] at ho
    simp [h] at ho

end ArrMap

namespace Radix.Node
variable {π : Type}

/-- The node reached by following the segments of a template. -/
def walk : Node π → Template → Option (Node π)
  | n, [] => some n
  | n, s :: ss =>
    if s.IsWildcard then
      if n.isWildcard ∧ n.wildcard = s.Payload then n.next.bind (fun m => walk m ss) else none
    else (n.statics.lookup s.Payload).bind (fun m => walk m ss)

/-- The payload registered for a template. -/
def payloadAt (n : Node π) (t : Template) : Option π := (walk n t).bind payload

/-- Well-formedness of one node. -/
def LocalWf (n : Node π) : Prop := n.statics.Distinct ∧ (n.isWildcard = true ↔ n.next.isSome = true)

/-- All nodes are well-formed. -/
def Wf (n : Node π) : Prop := ∀ t m, walk n t = some m → LocalWf m

theorem Wf.self {n : Node π} (h : Wf n) : LocalWf n := h [] n rfl

theorem Wf.static {n m : Node π} {k : Bytes} (h : Wf n) (hl : n.statics.lookup k = some m) : Wf m := by
  intro t r hr
  exact h (⟨k, false⟩ :: t) r (by simp [walk, hl, hr])

theorem Wf.next {n m : Node π} (h : Wf n) (hi : n.isWildcard = true) (hl : n.next = some m) : Wf m := by
  intro t r hr
  exact h (⟨n.wildcard, true⟩ :: t) r (by simp [walk, hi, hl, hr])

theorem walk_newNode (p : Option π) (t : Template) :
    walk (newNode p false []) t = if t = [] then some (newNode p false []) else none := by
  cases t with
  | nil => simp [walk]
  | cons s ss => simp [walk, newNode, isWildcard, statics, ArrMap.lookup, ArrMap.scan]

theorem wf_newNode (p : Option π) : Wf (newNode p false []) := by
  intro t m h
  rw [walk_newNode] at h
  split at h
  · simp at h; subst h
    exact ⟨by intro _; simp [newNode, statics], by simp [newNode, isWildcard, next]⟩
  · simp at h

/-- What an insertion changes. -/
structure Inserted (n n' : Node π) (t : Template) (p : π) : Prop where
  wf : Wf n'
  payload : ∀ s, payloadAt n' s = if s = t then some p else payloadAt n s
  nodes : ∀ s, (walk n' s).isSome ↔ (walk n s).isSome ∨ s <+: t

theorem insert_inserted : ∀ (t : Template) (n n' : Node π) (p : π), Wf n → insert n t p = .ok n' →
    Inserted n n' t p := by
  intro t
  induction t with
  | nil =>
    intro n n' p hw h
    obtain ⟨st, nx, pl, w, i⟩ := n
    simp only [insert, Except.ok.injEq] at h
    subst h
    have hwalk : ∀ (s : Segment) ss, walk (mk st nx (some p) w i) (s :: ss) = walk (mk st nx pl w i) (s :: ss) := by
      intro s ss; rfl
    refine ⟨?_, ?_, ?_⟩
    · intro s m hm
      cases s with
      | nil =>
        simp [walk] at hm; subst hm
        exact hw.self
      | cons s ss => rw [hwalk] at hm; exact hw _ _ hm
    · intro s
      cases s with
      | nil => simp [payloadAt, walk, payload]
      | cons s ss => simp [payloadAt, hwalk]
    · intro s
      cases s with
      | nil => simp [walk]
      | cons s ss => simp [hwalk]
  | cons g gs ih =>
    intro n n' p hw h
    obtain ⟨st, nx, pl, w, i⟩ := n
    obtain ⟨gp, gw⟩ := g
    cases gw with
    | true =>
      simp only [insert, if_true] at h
      split at h
      · simp at h
      · rename_i hname
        have hname : i = true → gp = w := by
          intro hi
          refine Decidable.byContradiction fun hne => hname ⟨hi, hne⟩
        cases hin : insert (nx.getD (newNode none false [])) gs p with
        | error e => rw [hin] at h; simp at h
        | ok m =>
          rw [hin] at h
          simp only [Except.ok.injEq] at h
          subst h
          have hwn : Wf (nx.getD (newNode none false [])) := by
            cases hnx : nx with
            | none => exact wf_newNode none
            | some q =>
              have hi : i = true := by
                have := hw.self.2
                simp [isWildcard, next, hnx] at this
                exact this
              exact hw.next hi (by simp [next, hnx])
          have ihm := ih _ _ _ hwn hin
          -- walking to the old next node
          have hold : ∀ ss, walk (mk st nx pl w i) (⟨gp, true⟩ :: ss) =
              if i = true then walk (nx.getD (newNode none false [])) ss else none := by
            intro ss
            cases hi : i with
            | true =>
              have := hname hi
              subst this
              have hs := hw.self.2
              simp [isWildcard, next, hi] at hs
              cases hnx : nx with
              | none => simp [hnx] at hs
              | some q => simp [walk, isWildcard, wildcard, next]
            | false => simp [walk, isWildcard]
          have hnone : i = false → ∀ ss, walk (nx.getD (newNode none false [])) ss =
              if ss = [] then some (newNode none false []) else none := by
            intro hi ss
            have hs := hw.self.2
            simp [isWildcard, next, hi] at hs
            rw [hs]
            exact walk_newNode none ss
          have hstat : ∀ k ss, walk (mk st (some m) pl gp true) (⟨k, false⟩ :: ss) =
              walk (mk st nx pl w i) (⟨k, false⟩ :: ss) := by
            intro k ss; simp [walk, statics]
          have hdyn : ∀ ss, walk (mk st (some m) pl gp true) (⟨gp, true⟩ :: ss) = walk m ss := by
            intro ss; simp [walk, isWildcard, wildcard, next]
          have hoth : ∀ k ss, k ≠ gp → walk (mk st (some m) pl gp true) (⟨k, true⟩ :: ss) = none := by
            intro k ss hk; simp [walk, isWildcard, wildcard]; exact fun e => absurd e.symm hk
          have hoth2 : ∀ k ss, k ≠ gp → walk (mk st nx pl w i) (⟨k, true⟩ :: ss) = none := by
            intro k ss hk
            cases hi : i with
            | false => simp [walk, isWildcard]
            | true =>
              have := hname hi
              simp [walk, isWildcard, wildcard]
              intro e; exact absurd (e.symm.trans this.symm) hk
          refine ⟨?_, ?_, ?_⟩
          · intro s r hr
            cases s with
            | nil =>
              simp [walk] at hr; subst hr
              exact ⟨hw.self.1, by simp [isWildcard, next]⟩
            | cons s ss =>
              obtain ⟨k, b⟩ := s
              cases b with
              | false => rw [hstat] at hr; exact hw _ _ hr
              | true =>
                by_cases hk : k = gp
                · subst hk; rw [hdyn] at hr; exact ihm.wf _ _ hr
                · rw [hoth k ss hk] at hr; simp at hr
          · intro s
            cases s with
            | nil => simp [payloadAt, walk, payload]
            | cons s ss =>
              obtain ⟨k, b⟩ := s
              cases b with
              | false => simp [payloadAt, hstat]
              | true =>
                by_cases hk : k = gp
                · subst hk
                  have := ihm.payload ss
                  simp only [payloadAt, hdyn, hold] at this ⊢
                  rw [this]
                  by_cases hss : ss = gs
                  · simp [hss]
                  · simp only [List.cons.injEq, true_and, if_neg hss]
                    cases hi : i with
                    | true => simp
                    | false =>
                      rw [hnone hi ss]
                      by_cases h0 : ss = []
                      · simp [h0, newNode, payload]
                      · simp [h0]
                · simp [payloadAt, hoth k ss hk, hoth2 k ss hk, hk]
          · intro s
            cases s with
            | nil => simp [walk]
            | cons s ss =>
              obtain ⟨k, b⟩ := s
              cases b with
              | false => rw [hstat]; simp
              | true =>
                by_cases hk : k = gp
                · subst hk
                  rw [hdyn, ihm.nodes, hold, List.cons_prefix_cons]
                  cases hi : i with
                  | true => simp
                  | false =>
                    rw [hnone hi ss]
                    by_cases h0 : ss = []
                    · simp [h0]
                    · simp [h0]
                · simp [hoth k ss hk, hoth2 k ss hk, hk]
    | false =>
      simp only [insert, Bool.false_eq_true, if_false] at h
      cases hlk : st.lookup gp with
      | some q =>
        rw [hlk] at h
        simp only at h
        cases hin : insert q gs p with
        | error e => rw [hin] at h; simp at h
        | ok m =>
          rw [hin] at h
          simp only [Except.ok.injEq] at h
          subst h
          have ihm := ih _ _ _ (hw.static (n := mk st nx pl w i) hlk) hin
          have hdyn : ∀ k ss, walk (mk (st.update gp m) nx pl w i) (⟨k, true⟩ :: ss) =
              walk (mk st nx pl w i) (⟨k, true⟩ :: ss) := by
            intro k ss; rfl
          have hst : ∀ ss, walk (mk (st.update gp m) nx pl w i) (⟨gp, false⟩ :: ss) = walk m ss := by
            intro ss; simp [walk, statics, ArrMap.lookup_update, hlk]
          have hst0 : ∀ ss, walk (mk st nx pl w i) (⟨gp, false⟩ :: ss) = walk q ss := by
            intro ss; simp [walk, statics, hlk]
          have hoth : ∀ k ss, k ≠ gp → walk (mk (st.update gp m) nx pl w i) (⟨k, false⟩ :: ss) =
              walk (mk st nx pl w i) (⟨k, false⟩ :: ss) := by
            intro k ss hk
            have hk' : ¬ gp = k := fun e => hk e.symm
            simp only [walk, statics, ArrMap.lookup_update, Bool.false_eq_true, if_false, hk', false_and]
          refine ⟨?_, ?_, ?_⟩
          · intro s r hr
            cases s with
            | nil =>
              simp [walk] at hr; subst hr
              exact ⟨ArrMap.distinct_update _ _ _ hw.self.1, hw.self.2⟩
            | cons s ss =>
              obtain ⟨k, b⟩ := s
              cases b with
              | true => rw [hdyn] at hr; exact hw _ _ hr
              | false =>
                by_cases hk : k = gp
                · subst hk; rw [hst] at hr; exact ihm.wf _ _ hr
                · rw [hoth k ss hk] at hr; exact hw _ _ hr
          · intro s
            cases s with
            | nil => simp [payloadAt, walk, payload]
            | cons s ss =>
              obtain ⟨k, b⟩ := s
              cases b with
              | true => simp [payloadAt, hdyn]
              | false =>
                by_cases hk : k = gp
                · subst hk
                  have := ihm.payload ss
                  simp only [payloadAt, hst, hst0] at this ⊢
                  rw [this]; simp
                · simp [payloadAt, hoth k ss hk, hk]
          · intro s
            cases s with
            | nil => simp [walk]
            | cons s ss =>
              obtain ⟨k, b⟩ := s
              cases b with
              | true => rw [hdyn]; simp
              | false =>
                by_cases hk : k = gp
                · subst hk
                  rw [hst, hst0, ihm.nodes, List.cons_prefix_cons]; simp
                · rw [hoth k ss hk]; simp [hk]
      | none =>
        rw [hlk] at h
        simp only at h
        cases hin : insert (newNode none false []) gs p with
        | error e => rw [hin] at h; simp at h
        | ok m =>
          rw [hin] at h
          simp only [Except.ok.injEq] at h
          subst h
          have ihm := ih _ _ _ (wf_newNode none) hin
          have hd : st.Distinct := hw.self.1
          have hdyn : ∀ k ss, walk (mk (st.add gp m) nx pl w i) (⟨k, true⟩ :: ss) =
              walk (mk st nx pl w i) (⟨k, true⟩ :: ss) := by
            intro k ss; rfl
          have hst : ∀ ss, walk (mk (st.add gp m) nx pl w i) (⟨gp, false⟩ :: ss) = walk m ss := by
            intro ss; simp [walk, statics, ArrMap.lookup_add _ _ _ _ hd hlk]
          have hst0 : ∀ ss, walk (mk st nx pl w i) (⟨gp, false⟩ :: ss) = none := by
            intro ss; simp [walk, statics, hlk]
          have hoth : ∀ k ss, k ≠ gp → walk (mk (st.add gp m) nx pl w i) (⟨k, false⟩ :: ss) =
              walk (mk st nx pl w i) (⟨k, false⟩ :: ss) := by
            intro k ss hk
            have hk' : ¬ gp = k := fun e => hk e.symm
            simp only [walk, statics, ArrMap.lookup_add _ _ _ _ hd hlk, Bool.false_eq_true, if_false, hk']
          refine ⟨?_, ?_, ?_⟩
          · intro s r hr
            cases s with
            | nil =>
              simp [walk] at hr; subst hr
              exact ⟨ArrMap.distinct_add _ _ _ hd hlk, hw.self.2⟩
            | cons s ss =>
              obtain ⟨k, b⟩ := s
              cases b with
              | true => rw [hdyn] at hr; exact hw _ _ hr
              | false =>
                by_cases hk : k = gp
                · subst hk; rw [hst] at hr; exact ihm.wf _ _ hr
                · rw [hoth k ss hk] at hr; exact hw _ _ hr
          · intro s
            cases s with
            | nil => simp [payloadAt, walk, payload]
            | cons s ss =>
              obtain ⟨k, b⟩ := s
              cases b with
              | true => simp [payloadAt, hdyn]
              | false =>
                by_cases hk : k = gp
                · subst hk
                  have := ihm.payload ss
                  simp only [payloadAt, hst, hst0] at this ⊢
                  rw [this, walk_newNode]
                  by_cases hss : ss = gs
                  · simp [hss]
                  · by_cases h0 : ss = []
                    · subst h0
                      simp [hss, newNode, payload]
                    · simp [hss, h0]
                · simp [payloadAt, hoth k ss hk, hk]
          · intro s
            cases s with
            | nil => simp [walk]
            | cons s ss =>
              obtain ⟨k, b⟩ := s
              cases b with
              | true => rw [hdyn]; simp
              | false =>
                by_cases hk : k = gp
                · subst hk
                  rw [hst, hst0, ihm.nodes, List.cons_prefix_cons, walk_newNode]
                  by_cases h0 : ss = []
                  · simp [h0]
                  · simp [h0]
                · rw [hoth k ss hk]; simp [hk]

/-- A sequence of insertions. -/
def insertAll (n : Node π) : List (Template × π) → Except TErr (Node π)
  | [] => .ok n
  | (t, p) :: ts =>
    match insert n t p with
    | .error e => .error e
    | .ok n => insertAll n ts

theorem insertAll_spec : ∀ (ts : List (Template × π)) (n n' : Node π), Wf n → insertAll n ts = .ok n' →
    Wf n' ∧ (∀ s, payloadAt n' s = (lastOf ts s).or (payloadAt n s)) ∧
      (∀ s, (walk n' s).isSome ↔ (walk n s).isSome ∨ ∃ t ∈ ts, s <+: t.1) := by
  intro ts
  induction ts with
  | nil =>
    intro n n' hw h
    simp [insertAll] at h; subst h
    exact ⟨hw, by simp [lastOf, firstOf], by simp⟩
  | cons e ts ih =>
    intro n n' hw h
    obtain ⟨t, p⟩ := e
    simp only [insertAll] at h
    cases hin : insert n t p with
    | error e => rw [hin] at h; simp at h
    | ok m =>
      rw [hin] at h
      have hi := insert_inserted t n m p hw hin
      obtain ⟨h1, h2, h3⟩ := ih m n' hi.wf h
      refine ⟨h1, ?_, ?_⟩
      · intro s
        rw [h2, hi.payload, lastOf, lastOf, List.reverse_cons, firstOf_append, firstOf_cons]
        cases hf : firstOf ts.reverse s with
        | some x => simp
        | none =>
          by_cases hs : t = s
          · subst hs; simp
          · have : ¬ s = t := fun e => hs e.symm
            simp [hs, this, firstOf]
      · intro s
        rw [h3, hi.nodes]
        simp only [List.mem_cons, exists_eq_or_imp, or_assoc]

/-! ### Matching -/

open Indigo.Spec.Radix

/-- The loop of `Match`, by sections. -/
def greedy : Node π → List Bytes → Storage → Option π × Storage
  | n, [], params => (n.payload, params)
  | n, s :: ss, params =>
    match processSegment params s n with
    | (none, params) => (none, params)
    | (some m, params) => greedy m ss params

theorem sectionsFrom_noslash (cur path : Bytes) (h : 47 ∉ path) (hne : cur ++ path ≠ []) :
    sectionsFrom cur path = [cur ++ path] := by
  induction path generalizing cur with
  | nil => simp at hne; simp [sectionsFrom, hne]
  | cons c cs ih =>
    simp at h
    rw [sectionsFrom, if_neg (fun e => h.1 e.symm), ih (cur ++ [c]) h.2 (by simp)]
    simp

theorem sectionsFrom_slash (cur a b : Bytes) (h : 47 ∉ a) :
    sectionsFrom cur (a ++ 47 :: b) = (cur ++ a) :: sections b := by
  induction a generalizing cur with
  | nil => simp [sectionsFrom, sections]
  | cons c cs ih =>
    simp at h
    rw [List.cons_append, sectionsFrom, if_neg (fun e => h.1 e.symm), ih (cur ++ [c]) h.2]
    simp

theorem matchLoop_eq : ∀ (fuel : Nat) (n : Node π) (path : Bytes) (params : Storage), path.length ≤ fuel →
    matchLoop fuel n path params = greedy n (sections path) params := by
  intro fuel
  induction fuel with
  | zero =>
    intro n path params h
    have : path = [] := List.length_eq_zero_iff.1 (by omega)
    subst this
    simp [matchLoop, sections, sectionsFrom, greedy]
  | succ fuel ih =>
    intro n path params h
    rw [matchLoop]
    by_cases h0 : path.length = 0
    · rw [if_pos h0]
      have : path = [] := List.length_eq_zero_iff.1 h0
      subst this
      simp [sections, sectionsFrom, greedy]
    · rw [if_neg h0]
      have hne : path ≠ [] := by simpa using h0
      cases hc : cut SLASH path with
      | none =>
        have hs : sections path = [path] := by
          have := sectionsFrom_noslash [] path (cut_none.1 hc) (by simpa using hne)
          simpa [sections] using this
        rw [hs, greedy]
        simp only
        cases hp : processSegment params path n with
        | mk o ps =>
          cases o with
          | none => rfl
          | some m => simp only; rw [ih m [] ps (by simp)]; rfl
      | some ab =>
        obtain ⟨a, b⟩ := ab
        obtain ⟨rfl, ha⟩ := cut_some hc
        have hs : sections (a ++ 47 :: b) = a :: sections b := by
          have := sectionsFrom_slash [] a b ha
          simpa [sections] using this
        rw [show (SLASH : Byte) = 47 from rfl, hs, greedy]
        simp only
        cases hp : processSegment params a n with
        | mk o ps =>
          cases o with
          | none => rfl
          | some m => simp only; rw [ih m b ps (by simp at h; omega)]

/-- A specification template as the code represents it. -/
def seg : Part → Segment
  | .lit s => ⟨s, false⟩
  | .var n => ⟨n, true⟩

theorem seg_inj {a b : Part} (h : seg a = seg b) : a = b := by
  cases a <;> cases b <;> simp [seg] at h <;> simp [h]

theorem map_seg_inj {a b : Tmpl} (h : a.map seg = b.map seg) : a = b :=
  (List.map_inj_right (fun _ _ => seg_inj)).1 h

/-- The parameters added for the values of variables. -/
def bind (params : Storage) (b : List (Bytes × Bytes)) : Storage :=
  { params with pairs := params.pairs ++ b.map (fun p => ⟨p.1, p.2⟩) }

theorem bind_nil (params : Storage) : bind params [] = params := by cases params; simp [bind]

theorem bind_add (params : Storage) (k v : Bytes) (b : List (Bytes × Bytes)) :
    bind (params.add k v) b = bind params ((k, v) :: b) := by simp [bind, Storage.add]

/-- Greedy matching finds exactly the payloads of templates the path is an instance of and which are not shadowed
by literal sections. -/
theorem greedy_iff : ∀ (ss : List Bytes) (n : Node π) (params params' : Storage) (p : π), Wf n →
    (greedy n ss params = (some p, params') ↔
      ∃ (t : Tmpl) (b : List (Bytes × Bytes)), payloadAt n (t.map seg) = some p ∧ Instance t ss b ∧
        (∀ i x s, t[i]? = some (Part.var x) → ss[i]? = some s → walk n ((t.take i ++ [Part.lit s]).map seg) = none) ∧
        params' = bind params b) := by
  intro ss
  induction ss with
  | nil =>
    intro n params params' p hw
    constructor
    · intro h
      simp only [greedy, Prod.mk.injEq] at h
      exact ⟨[], [], by simp [payloadAt, walk, h.1], .nil, by simp, by rw [bind_nil]; exact h.2.symm⟩
    · rintro ⟨t, b, h1, h2, -, h4⟩
      cases h2
      simp only [payloadAt, List.map_nil, walk, Option.bind_some] at h1
      rw [greedy, h1, h4, bind_nil]
  | cons s ss ih =>
    intro n params params' p hw
    rw [greedy]
    cases hl : n.statics.lookup s with
    | some m =>
      have hproc : processSegment params s n = (some m, params) := by simp [processSegment, hl]
      rw [hproc]
      simp only
      rw [ih m params params' p (hw.static hl)]
      constructor
      · rintro ⟨t, b, h1, h2, h3, h4⟩
        refine ⟨.lit s :: t, b, ?_, .lit h2, ?_, h4⟩
        · simpa [payloadAt, walk, seg, hl] using h1
        · intro i x s' hi hs
          cases i with
          | zero => simp at hi
          | succ i =>
            simp at hi hs
            have := h3 i x s' hi hs
            simpa [walk, seg, hl] using this
      · rintro ⟨t, b, h1, h2, h3, h4⟩
        cases h2 with
        | lit h2 =>
          refine ⟨_, b, ?_, h2, ?_, h4⟩
          · simpa [payloadAt, walk, seg, hl] using h1
          · intro i x s' hi hs
            have := h3 (i + 1) x s' (by simpa using hi) (by simpa using hs)
            simpa [walk, seg, hl] using this
        | @var x _ _ _ _ hn hs h2 =>
          have := h3 0 x s (by simp) (by simp)
          simp [walk, seg, hl] at this
        | anonymous hs h2 =>
          have := h3 0 [] s (by simp) (by simp)
          simp [walk, seg, hl] at this
    | none =>
      by_cases hd : n.isWildcard = true ∧ s ≠ []
      · obtain ⟨hi, hs⟩ := hd
        have hlen : ¬ s.length = 0 := by simpa using hs
        obtain ⟨m, hm⟩ := Option.isSome_iff_exists.1 (hw.self.2.1 hi)
        have hproc : processSegment params s n =
            (some m, if n.wildcard.length > 0 then params.add n.wildcard s else params) := by
          simp [processSegment, hl, hi, hlen, hm]
        rw [hproc]
        simp only
        rw [ih m _ params' p (hw.next hi hm)]
        have hstep : ∀ t : Tmpl, walk n ((Part.var n.wildcard :: t).map seg) = walk m (t.map seg) := by
          intro t; simp [walk, seg, hi, hm]
        constructor
        · rintro ⟨t, b, h1, h2, h3, h4⟩
          have hsh : ∀ i x s', (Part.var n.wildcard :: t)[i]? = some (Part.var x) → (s :: ss)[i]? = some s' →
              walk n (((Part.var n.wildcard :: t).take i ++ [Part.lit s']).map seg) = none := by
            intro i x s' hi' hs'
            cases i with
            | zero =>
              simp at hs'; subst hs'
              simp [walk, seg, hl]
            | succ i =>
              simp at hi' hs'
              have := h3 i x s' hi' hs'
              rw [List.take_succ_cons, List.cons_append, hstep]
              exact this
          by_cases hw0 : n.wildcard = []
          · refine ⟨.var n.wildcard :: t, b, ?_, ?_, hsh, ?_⟩
            · rw [payloadAt, hstep]; exact h1
            · rw [hw0]; exact .anonymous hs h2
            · simpa [hw0] using h4
          · refine ⟨.var n.wildcard :: t, (n.wildcard, s) :: b, ?_, .var hw0 hs h2, hsh, ?_⟩
            · rw [payloadAt, hstep]; exact h1
            · have : 0 < n.wildcard.length := List.length_pos_iff.2 hw0
              rw [if_pos this, bind_add] at h4
              exact h4
        · rintro ⟨t, b, h1, h2, h3, h4⟩
          cases h2 with
          | lit h2 =>
            simp [payloadAt, walk, seg, hl] at h1
          | @var x _ t _ b hx hs' h2 =>
            have hxw : n.wildcard = x := by
              simp only [payloadAt, List.map_cons, walk, seg, if_true, hi, true_and] at h1
              split at h1
              · assumption
              · simp at h1
            subst hxw
            refine ⟨t, b, ?_, h2, ?_, ?_⟩
            · rw [payloadAt, hstep] at h1; exact h1
            · intro i x s' hi' hs'
              have := h3 (i + 1) x s' (by simpa using hi') (by simpa using hs')
              rw [List.take_succ_cons, List.cons_append, hstep] at this
              exact this
            · have : 0 < n.wildcard.length := List.length_pos_iff.2 hx
              rw [if_pos this, bind_add]; exact h4
          | @anonymous _ t _ b hs' h2 =>
            have hxw : n.wildcard = [] := by
              simp only [payloadAt, List.map_cons, walk, seg, if_true, hi, true_and] at h1
              split at h1
              · assumption
              · simp at h1
            refine ⟨t, b, ?_, h2, ?_, ?_⟩
            · rw [← hxw, payloadAt, hstep] at h1; exact h1
            · intro i x s' hi' hs'
              have := h3 (i + 1) x s' (by simpa using hi') (by simpa using hs')
              rw [List.take_succ_cons, List.cons_append, ← hxw, hstep] at this
              exact this
            · simp [hxw]; exact h4
      · have hproc : processSegment params s n = (none, params) := by
          rw [processSegment, hl]
          simp only
          rw [if_pos]
          cases hi : n.isWildcard with
          | false => simp
          | true =>
            have : s = [] := Decidable.byContradiction fun hne => hd ⟨hi, hne⟩
            simp [this]
        rw [hproc]
        simp only [Prod.mk.injEq, reduceCtorEq, false_and, false_iff]
        rintro ⟨t, b, h1, h2, h3, h4⟩
        cases h2 with
        | lit h2 => simp [payloadAt, walk, seg, hl] at h1
        | var hn hs h2 =>
          have : ¬ n.isWildcard = true := fun hi => hd ⟨hi, hs⟩
          simp [payloadAt, walk, seg, this] at h1
        | anonymous hs h2 =>
          have : ¬ n.isWildcard = true := fun hi => hd ⟨hi, hs⟩
          simp [payloadAt, walk, seg, this] at h1

/-! ### Registration -/

theorem insert_ok_iff : ∀ (t : Template) (n : Node π) (p : π), Wf n →
    ((∃ n', insert n t p = .ok n') ↔
      ∀ i x y, t[i]? = some ⟨x, true⟩ → (walk n (t.take i ++ [⟨y, true⟩])).isSome → x = y) := by
  intro t
  induction t with
  | nil => intro n p _; obtain ⟨st, nx, pl, w, i⟩ := n; simp [insert]
  | cons g gs ih =>
    intro n p hw
    obtain ⟨st, nx, pl, w, i⟩ := n
    obtain ⟨gp, gw⟩ := g
    cases gw with
    | true =>
      simp only [insert, if_true]
      by_cases hc : i = true ∧ gp ≠ w
      · rw [if_pos hc]
        constructor
        · rintro ⟨n', h⟩; simp at h
        · intro h
          obtain ⟨q, hq⟩ := Option.isSome_iff_exists.1 (hw.self.2.1 hc.1)
          simp only [next] at hq
          exact absurd (h 0 gp w (by simp) (by simp [walk, isWildcard, wildcard, next, hc.1, hq])) hc.2
      · rw [if_neg hc]
        have hname : i = true → gp = w := fun hi => Decidable.byContradiction fun hne => hc ⟨hi, hne⟩
        have hwn : Wf (nx.getD (newNode none false [])) := by
          cases hnx : nx with
          | none => exact wf_newNode none
          | some q =>
            have hi : i = true := by
              have := hw.self.2
              simp [isWildcard, next, hnx] at this
              exact this
            exact hw.next hi (by simp [next, hnx])
        refine Iff.trans (b := ∃ n', insert (nx.getD (newNode none false [])) gs p = .ok n') (by cases insert (nx.getD (newNode none false [])) gs p <;> simp) ?_
        rw [ih _ p hwn]
        have hold : ∀ ss, ss ≠ [] → (walk (mk st nx pl w i) (⟨gp, true⟩ :: ss)).isSome =
            (walk (nx.getD (newNode none false [])) ss).isSome := by
          intro ss hss
          cases hi : i with
          | true =>
            have := hname hi
            subst this
            have hs := hw.self.2
            simp [isWildcard, next, hi] at hs
            cases hnx : nx with
            | none => simp [hnx] at hs
            | some q => simp [walk, isWildcard, wildcard, next]
          | false =>
            have hs := hw.self.2
            simp [isWildcard, next, hi] at hs
            rw [hs]
            simp [walk_newNode, hss, walk, isWildcard]
        constructor
        · intro h j x y hj hwk
          cases j with
          | zero =>
            simp at hj; subst hj
            by_cases hh : i = true ∧ w = y
            · rw [hname hh.1, hh.2]
            · have hz : walk (mk st nx pl w i) [⟨y, true⟩] = none := by
                unfold walk; rw [if_pos rfl]; exact if_neg hh
              rw [List.take_zero, List.nil_append, hz] at hwk
              simp at hwk
          | succ j =>
            simp at hj
            rw [List.take_succ_cons, List.cons_append, hold _ (by simp)] at hwk
            exact h j x y hj hwk
        · intro h j x y hj hwk
          refine h (j + 1) x y (by simpa using hj) ?_
          rw [List.take_succ_cons, List.cons_append, hold _ (by simp)]; exact hwk
    | false =>
      simp only [insert, Bool.false_eq_true, if_false]
      cases hlk : st.lookup gp with
      | some q =>
        simp only
        refine Iff.trans (b := ∃ n', insert q gs p = .ok n') (by cases insert q gs p <;> simp) ?_
        rw [ih _ p (hw.static (n := mk st nx pl w i) hlk)]
        have hst0 : ∀ ss, walk (mk st nx pl w i) (⟨gp, false⟩ :: ss) = walk q ss := by
          intro ss; simp [walk, statics, hlk]
        constructor
        · intro h j x y hj hwk
          cases j with
          | zero => simp at hj
          | succ j =>
            rw [List.take_succ_cons, List.cons_append, hst0] at hwk
            exact h j x y (by simpa using hj) hwk
        · intro h j x y hj hwk
          refine h (j + 1) x y (by simpa using hj) ?_
          rw [List.take_succ_cons, List.cons_append, hst0]; exact hwk
      | none =>
        simp only
        refine Iff.trans (b := ∃ n', insert (newNode none false []) gs p = .ok n') (by cases insert (newNode none false []) gs p <;> simp) ?_
        rw [ih _ p (wf_newNode none)]
        constructor
        · intro h j x y hj hwk
          cases j with
          | zero => simp at hj
          | succ j =>
            rw [List.take_succ_cons, List.cons_append] at hwk
            simp [walk, statics, hlk] at hwk
        · intro h j x y hj hwk
          rw [walk_newNode] at hwk
          simp at hwk

theorem insertAll_ok_iff : ∀ (ts : List (Template × π)) (n : Node π), Wf n →
    ((∃ n', insertAll n ts = .ok n') ↔
      ((∀ t ∈ ts, ∀ i x y, t.1[i]? = some ⟨x, true⟩ → (walk n (t.1.take i ++ [⟨y, true⟩])).isSome → x = y) ∧
        ts.Pairwise (fun t t' => ∀ i x y, t'.1[i]? = some ⟨x, true⟩ →
          (t'.1.take i ++ [⟨y, true⟩]) <+: t.1 → x = y))) := by
  intro ts
  induction ts with
  | nil => intro n _; simp [insertAll]
  | cons e ts ih =>
    intro n hw
    obtain ⟨t, p⟩ := e
    simp only [insertAll, List.mem_cons, forall_eq_or_imp, List.pairwise_cons]
    have h1 := insert_ok_iff t n p hw
    cases hin : insert n t p with
    | error e =>
      rw [hin] at h1
      simp only [reduceCtorEq, exists_false, false_iff] at h1 ⊢
      exact fun h => h1 h.1.1
    | ok m =>
      simp only
      rw [hin] at h1
      have h1 := h1.1 ⟨m, rfl⟩
      have hi := insert_inserted t n m p hw hin
      rw [ih m hi.wf]
      constructor
      · rintro ⟨h2, h3⟩
        refine ⟨⟨h1, ?_⟩, ?_, h3⟩
        · intro t' ht' i x y hx hwk
          exact h2 t' ht' i x y hx ((hi.nodes _).2 (Or.inl hwk))
        · intro t' ht' i x y hx hp
          exact h2 t' ht' i x y hx ((hi.nodes _).2 (Or.inr hp))
      · rintro ⟨⟨-, h2⟩, h3, h4⟩
        refine ⟨?_, h4⟩
        intro t' ht' i x y hx hwk
        rcases (hi.nodes _).1 hwk with h | h
        · exact h2 t' ht' i x y hx h
        · exact h3 t' ht' i x y hx h

/-! ### Parsing of templates -/

/-- The text of sections, each after a slash. -/
def flat (t : Tmpl) : Bytes := t.flatMap (fun p => b!"/" ++ p.text)

theorem parseLoop_static (s rest cur : Bytes) (segs : Template) (h : ∀ c ∈ s, c ≠ 47 ∧ c ≠ 123) :
    parseLoop .eStatic cur segs (s ++ rest) = parseLoop .eStatic (cur ++ s) segs rest := by
  induction s generalizing cur with
  | nil => simp
  | cons c cs ih =>
    have hc := h c (by simp)
    rw [List.cons_append, parseLoop, if_neg hc.1, if_neg hc.2, ih _ (fun x hx => h x (by simp [hx]))]
    simp

theorem parseLoop_dynamic (s rest cur : Bytes) (segs : Template) (h : ∀ c ∈ s, c ≠ 47 ∧ c ≠ 123 ∧ c ≠ 125) :
    parseLoop .eDynamic cur segs (s ++ 125 :: rest) =
      parseLoop .eFinishDynamic (cur ++ s) (segs ++ [⟨cur ++ s, true⟩]) rest := by
  induction s generalizing cur with
  | nil => simp [parseLoop]
  | cons c cs ih =>
    have hc := h c (by simp)
    rw [List.cons_append, parseLoop, if_neg hc.2.2, if_neg (by rintro (h | h); exact hc.1 h; exact hc.2.1 h),
      ih _ (fun x hx => h x (by simp [hx]))]
    simp

theorem parseLoop_flat : ∀ (ps : Tmpl) (p : Part) (segs : Template), (∀ q ∈ p :: ps, q.Valid) →
    (∀ s, (p :: ps).getLast? = some (.lit s) → 2 ≤ s.length) →
    parseLoop .eSlash [] segs (p.text ++ flat ps) = .ok (segs ++ (p :: ps).map seg) ∧
      ∀ s, p = .lit s → parseLoop .eStatic [] segs (s ++ flat ps) = .ok (segs ++ (p :: ps).map seg) := by
  intro ps
  induction ps with
  | nil =>
    intro p segs hv hl
    cases p with
    | lit s =>
      obtain ⟨hne, hs⟩ := hv _ (by simp : Part.lit s ∈ [Part.lit s])
      have hlen := hl s (by simp)
      have h2 : parseLoop .eStatic [] segs (s ++ flat []) = .ok (segs ++ [Part.lit s].map seg) := by
        rw [parseLoop_static s _ _ _ (fun c hc => ⟨(hs c hc).1, (hs c hc).2.1⟩)]
        simp only [flat, List.flatMap_nil, List.nil_append, parseLoop]
        rw [if_pos ⟨trivial, by omega⟩]
        simp [seg]
      refine ⟨?_, fun s' e => by cases e; exact h2⟩
      rw [← h2]
      cases s with
      | nil => exact absurd rfl hne
      | cons c cs =>
        have hc := hs c (by simp)
        simp [Part.text, parseLoop, hc]
    | var n =>
      have hn := hv _ (by simp : Part.var n ∈ [Part.var n])
      refine ⟨?_, by simp⟩
      simp only [Part.text, flat, List.flatMap_nil, List.append_nil, List.append_assoc]
      show parseLoop .eSlash [] segs (123 :: (n ++ 125 :: [])) = _
      rw [parseLoop, if_neg (by decide), if_pos rfl, parseLoop_dynamic _ _ _ _ hn]
      simp [parseLoop, seg]
  | cons q ps ih =>
    intro p segs hv hl
    have hv' : ∀ r ∈ q :: ps, r.Valid := fun r hr => hv r (List.mem_cons_of_mem _ hr)
    have hl' : ∀ s, (q :: ps).getLast? = some (.lit s) → 2 ≤ s.length := by
      intro s h; exact hl s (by rw [List.getLast?_cons_cons]; exact h)
    have hflat : flat (q :: ps) = 47 :: (q.text ++ flat ps) := by simp [flat]
    cases p with
    | lit s =>
      obtain ⟨hne, hs⟩ := hv _ (by simp : Part.lit s ∈ Part.lit s :: q :: ps)
      have h2 : parseLoop .eStatic [] segs (s ++ flat (q :: ps)) = .ok (segs ++ (Part.lit s :: q :: ps).map seg) := by
        rw [parseLoop_static s _ _ _ (fun c hc => ⟨(hs c hc).1, (hs c hc).2.1⟩), hflat, parseLoop, if_pos rfl,
          (ih q _ hv' hl').1]
        simp [seg]
      refine ⟨?_, fun s' e => by cases e; exact h2⟩
      rw [← h2]
      cases s with
      | nil => exact absurd rfl hne
      | cons c cs =>
        have hc := hs c (by simp)
        simp [Part.text, parseLoop, hc]
    | var n =>
      have hn := hv _ (by simp : Part.var n ∈ Part.var n :: q :: ps)
      refine ⟨?_, by simp⟩
      simp only [Part.text, List.append_assoc]
      show parseLoop .eSlash [] segs (123 :: (n ++ 125 :: flat (q :: ps))) = _
      rw [parseLoop, if_neg (by decide), if_pos rfl, parseLoop_dynamic _ _ _ _ hn, hflat, parseLoop, if_pos rfl,
        (ih q _ hv' hl').1]
      simp [seg]

/-- After the sections of a template and a slash, the loop is where it was after the first slash. -/
theorem parseLoop_flat_slash : ∀ (ps : Tmpl) (p : Part) (segs : Template) (rest : Bytes), (∀ q ∈ p :: ps, q.Valid) →
    parseLoop .eSlash [] segs (p.text ++ (flat ps ++ 47 :: rest)) =
        parseLoop .eSlash [] (segs ++ (p :: ps).map seg) rest ∧
      ∀ s, p = .lit s → parseLoop .eStatic [] segs (s ++ (flat ps ++ 47 :: rest)) =
        parseLoop .eSlash [] (segs ++ (p :: ps).map seg) rest := by
  intro ps
  induction ps with
  | nil =>
    intro p segs rest hv
    cases p with
    | lit s =>
      obtain ⟨hne, hs⟩ := hv _ (by simp : Part.lit s ∈ [Part.lit s])
      have h2 : parseLoop .eStatic [] segs (s ++ (flat [] ++ 47 :: rest)) =
          parseLoop .eSlash [] (segs ++ [Part.lit s].map seg) rest := by
        rw [parseLoop_static s _ _ _ (fun c hc => ⟨(hs c hc).1, (hs c hc).2.1⟩)]
        simp [flat, parseLoop, seg]
      refine ⟨?_, fun s' e => by cases e; exact h2⟩
      rw [← h2]
      cases s with
      | nil => exact absurd rfl hne
      | cons c cs =>
        have hc := hs c (by simp)
        simp [Part.text, parseLoop, hc]
    | var n =>
      have hn := hv _ (by simp : Part.var n ∈ [Part.var n])
      refine ⟨?_, by simp⟩
      simp only [Part.text, flat, List.flatMap_nil, List.append_assoc]
      show parseLoop .eSlash [] segs (123 :: (n ++ 125 :: (47 :: rest))) = _
      rw [parseLoop, if_neg (by decide), if_pos rfl, parseLoop_dynamic _ _ _ _ hn]
      simp [parseLoop, seg]
  | cons q ps ih =>
    intro p segs rest hv
    have hv' : ∀ r ∈ q :: ps, r.Valid := fun r hr => hv r (List.mem_cons_of_mem _ hr)
    have hflat : flat (q :: ps) ++ 47 :: rest = 47 :: (q.text ++ (flat ps ++ 47 :: rest)) := by simp [flat]
    cases p with
    | lit s =>
      obtain ⟨hne, hs⟩ := hv _ (by simp : Part.lit s ∈ Part.lit s :: q :: ps)
      have h2 : parseLoop .eStatic [] segs (s ++ (flat (q :: ps) ++ 47 :: rest)) =
          parseLoop .eSlash [] (segs ++ (Part.lit s :: q :: ps).map seg) rest := by
        rw [parseLoop_static s _ _ _ (fun c hc => ⟨(hs c hc).1, (hs c hc).2.1⟩), hflat, parseLoop, if_pos rfl,
          (ih q _ rest hv').1]
        simp [seg]
      refine ⟨?_, fun s' e => by cases e; exact h2⟩
      rw [← h2]
      cases s with
      | nil => exact absurd rfl hne
      | cons c cs =>
        have hc := hs c (by simp)
        simp [Part.text, parseLoop, hc]
    | var n =>
      have hn := hv _ (by simp : Part.var n ∈ Part.var n :: q :: ps)
      refine ⟨?_, by simp⟩
      simp only [Part.text, List.append_assoc]
      show parseLoop .eSlash [] segs (123 :: (n ++ 125 :: (flat (q :: ps) ++ 47 :: rest))) = _
      rw [parseLoop, if_neg (by decide), if_pos rfl, parseLoop_dynamic _ _ _ _ hn, hflat, parseLoop, if_pos rfl,
        (ih q _ rest hv').1]
      simp [seg]

theorem parseLoop_flat_letter (ps : Tmpl) (p : Part) (segs : Template) (hv : ∀ q ∈ p :: ps, q.Valid) (c : Byte)
    (hc : c ≠ 47 ∧ c ≠ 123) :
    parseLoop .eSlash [] segs (p.text ++ (flat ps ++ [47, c])) = .ok (segs ++ (p :: ps).map seg) ∧
      ∀ s, p = .lit s → parseLoop .eStatic [] segs (s ++ (flat ps ++ [47, c])) = .ok (segs ++ (p :: ps).map seg) := by
  have h := parseLoop_flat_slash ps p segs [c] hv
  have e : ∀ sg, parseLoop .eSlash [] sg [c] = .ok sg := by intro sg; simp [parseLoop, hc]
  exact ⟨h.1.trans (e _), fun s hs => (h.2 s hs).trans (e _)⟩

theorem parseLoop_open (n cur : Bytes) (segs : Template) (hn : ∀ c ∈ n, c ≠ 47 ∧ c ≠ 123 ∧ c ≠ 125) :
    parseLoop .eDynamic cur segs n = .ok segs := by
  induction n generalizing cur with
  | nil => simp [parseLoop]
  | cons c cs ih =>
    have hc := hn c (by simp)
    rw [parseLoop, if_neg hc.2.2, if_neg (by rintro (h | h); exact hc.1 h; exact hc.2.1 h),
      ih _ (fun x hx => hn x (by simp [hx]))]

theorem parseLoop_flat_unfinished (ps : Tmpl) (p : Part) (segs : Template) (hv : ∀ q ∈ p :: ps, q.Valid) (n : Bytes)
    (hn : ∀ c ∈ n, c ≠ 47 ∧ c ≠ 123 ∧ c ≠ 125) :
    parseLoop .eSlash [] segs (p.text ++ (flat ps ++ 47 :: 123 :: n)) = .ok (segs ++ (p :: ps).map seg) ∧
      ∀ s, p = .lit s →
        parseLoop .eStatic [] segs (s ++ (flat ps ++ 47 :: 123 :: n)) = .ok (segs ++ (p :: ps).map seg) := by
  have h := parseLoop_flat_slash ps p segs (123 :: n) hv
  have e : ∀ sg, parseLoop .eSlash [] sg (123 :: n) = .ok sg := by
    intro sg; rw [parseLoop, if_neg (by decide), if_pos rfl, parseLoop_open _ _ _ hn]
  exact ⟨h.1.trans (e _), fun s hs => (h.2 s hs).trans (e _)⟩

theorem parse_text (t : Tmpl) (h : Writable t) : parse (text t) = .ok (t.map seg) := by
  cases t with
  | nil => rfl
  | cons p ps =>
    obtain ⟨hv, hh, hl⟩ := h
    cases p with
    | var n => exact absurd rfl (hh n)
    | lit s =>
      have : text (.lit s :: ps) = 47 :: (s ++ flat ps) := by simp [text, flat, Part.text]
      rw [this, parse, if_neg (by decide)]
      have := (parseLoop_flat ps (.lit s) [] hv hl).2 s rfl
      simpa using this

theorem register_eq (ts : List (Tmpl × π)) (hw : ∀ t ∈ ts, Writable t.1) (n : Node π) :
    register n (ts.map (fun t => (text t.1, t.2))) = insertAll n (ts.map (fun t => (t.1.map seg, t.2))) := by
  induction ts generalizing n with
  | nil => rfl
  | cons t ts ih =>
    obtain ⟨t, p⟩ := t
    simp only [List.map_cons, register, insertAll, parse_text t (hw (t, p) (by simp))]
    cases insert n (t.map seg) p with
    | error e => rfl
    | ok m => exact ih (fun x hx => hw x (by simp [hx])) m

end Radix.Node
end Indigo
