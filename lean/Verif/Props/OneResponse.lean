/-
C103 What is sent is what was set on the response which is returned.
-/
import Verif.Spec.OneResponse
import Verif.Props.Builder

namespace Indigo.Props
open Indigo.OneResponse Indigo.Spec.OneResponse

private theorem kinds_append (p q : List Stmt) : kinds (p ++ q) = kinds p ++ kinds q := by simp [kinds]
private theorem callsOn_append (w : Nat → Bool) (p q : List Stmt) : callsOn w (p ++ q) = callsOn w p ++ callsOn w q := by simp [callsOn]
private theorem built_append (a b : List (Fields → Option Fields)) : built (a ++ b) = (built a).bind (fun r => b.foldlM (fun r f => f r) r) := by
  simp [built, List.foldlM_append]
private theorem new_eq : Fields.new = { Code := 200, ContentType := b!"text/html" } := rfl

/-- What is known after the statements `p`; `K` is what will be known about where responses come from. -/
private structure Inv (p : List Stmt) (st : State) : Prop where
  length : st.results.length = (kinds p).length
  first : 0 < st.objects.length
  respond : ∀ v : Nat, (kinds p)[v]? = some true → st.results[v]? = some 0
  new : ∀ v : Nat, (kinds p)[v]? = some false → ∃ o : Nat, o ≠ 0 ∧ st.results[v]? = some o ∧ o < st.objects.length ∧ st.objects[o]? = built (callsOn (· = v) p)
  distinct : ∀ v w o : Nat, (kinds p)[v]? = some false → st.results[v]? = some o → st.results[w]? = some o → v = w
  bound : ∀ v o : Nat, st.results[v]? = some o → o < st.objects.length
  unused : ∀ v : Nat, (kinds p).length ≤ v → callsOn (· = v) p = []

private theorem inv_step {p : List Stmt} {st st' : State} (s : Stmt) (h : Inv p st) (hs : step st s = some st') : Inv (p ++ [s]) st' := by
  cases s with
  | respond =>
    cases hs
    have hk : kinds (p ++ [.respond]) = kinds p ++ [true] := kinds_append _ _
    have hc : ∀ w, callsOn w (p ++ [.respond]) = callsOn w p := fun w => by rw [callsOn_append]; simp [callsOn]
    have hl : (st.objects.modify 0 Fields.clear).length = st.objects.length := by simp
    refine ⟨by rw [hk]; simp [h.length], by rw [hl]; exact h.first, ?_, ?_, ?_, ?_, ?_⟩
    · intro v hv
      rw [hk] at hv
      by_cases e : v < (kinds p).length
      · rw [List.getElem?_append_left e] at hv
        rw [List.getElem?_append_left (by rw [h.length]; exact e)]
        exact h.respond v hv
      · rw [List.getElem?_append_right (by omega)] at hv
        rw [List.getElem?_append_right (by rw [h.length]; omega), h.length]
        revert hv
        cases v - (kinds p).length <;> simp
    · intro v hv
      rw [hk] at hv
      by_cases e : v < (kinds p).length
      · rw [List.getElem?_append_left e] at hv
        obtain ⟨o, h1, h2, h3, h4⟩ := h.new v hv
        refine ⟨o, h1, ?_, by rw [hl]; exact h3, ?_⟩
        · rw [List.getElem?_append_left (by rw [h.length]; exact e)]; exact h2
        · rw [hc, ← h4]; simp [Ne.symm h1]
      · rw [List.getElem?_append_right (by omega)] at hv
        revert hv
        cases v - (kinds p).length <;> simp
    · intro v w o hv h1 h2
      rw [hk] at hv
      have e : v < (kinds p).length := by
        by_cases e : v < (kinds p).length
        · exact e
        · rw [List.getElem?_append_right (by omega)] at hv
          revert hv
          cases v - (kinds p).length <;> simp
      rw [List.getElem?_append_left e] at hv
      rw [List.getElem?_append_left (by rw [h.length]; exact e)] at h1
      obtain ⟨o', k1, k2, -⟩ := h.new v hv
      rw [h1] at k2
      cases k2
      by_cases ew : w < st.results.length
      · rw [List.getElem?_append_left ew] at h2
        exact h.distinct v w o hv h1 h2
      · rw [List.getElem?_append_right (by omega)] at h2
        revert h2
        cases w - st.results.length with
        | zero => intro h2; simp at h2; exact absurd h2.symm k1
        | succ n => simp
    · intro v o hv
      rw [hl]
      by_cases e : v < st.results.length
      · rw [List.getElem?_append_left e] at hv
        exact h.bound v o hv
      · rw [List.getElem?_append_right (by omega)] at hv
        revert hv
        cases v - st.results.length with
        | zero => intro h2; simp at h2; rw [← h2]; exact h.first
        | succ n => simp
    · intro v hv
      rw [hc]
      refine h.unused v ?_
      rw [hk] at hv
      simp at hv
      omega
  | new =>
    cases hs
    have hk : kinds (p ++ [.new]) = kinds p ++ [false] := kinds_append _ _
    have hc : ∀ w, callsOn w (p ++ [.new]) = callsOn w p := fun w => by rw [callsOn_append]; simp [callsOn]
    refine ⟨by rw [hk]; simp [h.length], by simp, ?_, ?_, ?_, ?_, ?_⟩
    · intro v hv
      rw [hk] at hv
      by_cases e : v < (kinds p).length
      · rw [List.getElem?_append_left e] at hv
        rw [List.getElem?_append_left (by rw [h.length]; exact e)]
        exact h.respond v hv
      · rw [List.getElem?_append_right (by omega)] at hv
        revert hv
        cases v - (kinds p).length <;> simp
    · intro v hv
      rw [hk] at hv
      by_cases e : v < (kinds p).length
      · rw [List.getElem?_append_left e] at hv
        obtain ⟨o, h1, h2, h3, h4⟩ := h.new v hv
        refine ⟨o, h1, ?_, by simp; omega, ?_⟩
        · rw [List.getElem?_append_left (by rw [h.length]; exact e)]; exact h2
        · rw [hc, ← h4, List.getElem?_append_left h3]
      · have hv' : v = (kinds p).length := by
          rw [List.getElem?_append_right (by omega)] at hv
          by_cases e0 : v - (kinds p).length = 0
          · omega
          · rw [List.getElem?_eq_none (by simp; omega)] at hv; cases hv
        refine ⟨st.objects.length, Nat.pos_iff_ne_zero.1 h.first, ?_, by simp, ?_⟩
        · rw [hv', ← h.length]; simp
        · rw [hc, h.unused v (by omega)]; simp [built]; rfl
    · intro v w o hv h1 h2
      by_cases ew : w < st.results.length
      · rw [List.getElem?_append_left ew] at h2
        have hb := h.bound w o h2
        by_cases ev : v < st.results.length
        · rw [List.getElem?_append_left ev] at h1
          rw [hk, List.getElem?_append_left (by rw [← h.length]; exact ev)] at hv
          exact h.distinct v w o hv h1 h2
        · rw [List.getElem?_append_right (by omega)] at h1
          revert h1
          cases v - st.results.length with
          | zero => intro h1; simp at h1; omega
          | succ n => simp
      · have hw : w = st.results.length ∧ o = st.objects.length := by
          rw [List.getElem?_append_right (by omega)] at h2
          by_cases e0 : w - st.results.length = 0
          · rw [e0] at h2; simp at h2; exact ⟨by omega, h2.symm⟩
          · rw [List.getElem?_eq_none (by simp; omega)] at h2; cases h2
        by_cases ev : v < st.results.length
        · rw [List.getElem?_append_left ev] at h1
          have := h.bound v o h1
          omega
        · rw [List.getElem?_append_right (by omega)] at h1
          by_cases e0 : v - st.results.length = 0
          · omega
          · rw [List.getElem?_eq_none (by simp; omega)] at h1; cases h1
    · intro v o hv
      by_cases e : v < st.results.length
      · rw [List.getElem?_append_left e] at hv
        have := h.bound v o hv
        simp; omega
      · rw [List.getElem?_append_right (by omega)] at hv
        revert hv
        cases v - st.results.length with
        | zero => intro h2; simp at h2; simp; omega
        | succ n => simp
    · intro v hv
      rw [hc]
      refine h.unused v ?_
      rw [hk] at hv
      simp at hv
      omega
  | call v f =>
    have hk : kinds (p ++ [.call v f]) = kinds p := by rw [kinds_append]; simp [kinds]
    have hc : ∀ w, callsOn w (p ++ [.call v f]) = callsOn w p ++ (if w v then [f] else []) := fun w => by rw [callsOn_append]; simp [callsOn]; split <;> simp_all
    simp only [step] at hs
    split at hs
    · cases hs
    rename_i o ho
    split at hs
    · cases hs
    rename_i r hr
    cases hf : f r with
    | none => rw [hf] at hs; cases hs
    | some r' =>
      rw [hf] at hs
      cases hs
      refine ⟨by rw [hk]; exact h.length, by simp [h.first], by rw [hk]; exact h.respond, ?_, by rw [hk]; exact h.distinct, by simpa using h.bound, ?_⟩
      · intro w hw
        rw [hk] at hw
        obtain ⟨o', h1, h2, h3, h4⟩ := h.new w hw
        refine ⟨o', h1, h2, by simpa using h3, ?_⟩
        rw [hc, built_append, ← h4]
        by_cases e : v = w
        · subst e
          rw [ho] at h2
          cases h2
          rw [hr, List.getElem?_set_self h3]
          simp [hf]
        · have : o ≠ o' := fun e' => e (h.distinct w v o' hw h2 (by rw [← e']; exact ho)).symm
          rw [List.getElem?_set_ne this]
          simp [e]
      · intro w hw
        rw [hk] at hw
        rw [hc, h.unused w hw]
        have : v < (kinds p).length := by
          rw [← h.length]
          exact (List.getElem?_eq_some_iff.1 ho).1
        have : v ≠ w := by omega
        simp [this]

private theorem inv_run : ∀ (q p : List Stmt) (st st' : State), Inv p st → q.foldlM step st = some st' → Inv (p ++ q) st'
  | [], p, st, st', h, hs => by cases hs; simpa using h
  | s :: q, p, st, st', h, hs => by
    rw [List.foldlM_cons] at hs
    cases e : step st s with
    | none => rw [e] at hs; cases hs
    | some st1 =>
      rw [e] at hs
      have := inv_run q (p ++ [s]) st1 st' (inv_step s h e) hs
      simpa using this

private theorem inv_start (old : Fields) : Inv [] ⟨[old], []⟩ where
  length := rfl
  first := Nat.zero_lt_one
  respond v h := by cases h
  new v h := by cases h
  distinct v w o h := by cases h
  bound v o h := by cases h
  unused v _ := rfl

/-- **C103**, `NewResponse`: what is sent, if this response is returned, are the methods called on it, and nothing else, whatever else is done with other responses. -/
theorem C103_new (old : Fields) (p : List Stmt) (st : State) (h : run old p = some st) (v : Nat) (hv : (kinds p)[v]? = some false) :
    returned st v = built (callsOn (· = v) p) := by
  obtain ⟨o, -, h1, -, h2⟩ := (inv_run p [] _ _ (inv_start old) h).new v hv
  rw [List.nil_append] at h2
  rw [returned, h1, ← h2]
  rfl

private theorem since_respond (K : List Bool) : ∀ (q p : List Stmt) (st st' : State), Inv p st → .respond ∉ q → q.foldlM step st = some st' → kinds (p ++ q) = K →
    st'.objects[0]? = st.objects[0]?.bind (fun r => (callsOn (fun w => K[w]? = some true) q).foldlM (fun r f => f r) r)
  | [], p, st, st', h, _, hs, _ => by
    cases hs
    simp [callsOn]
  | s :: q, p, st, st', h, hq, hs, hK => by
    rw [List.foldlM_cons] at hs
    cases e : step st s with
    | none => rw [e] at hs; cases hs
    | some st1 =>
      rw [e] at hs
      have ih := since_respond K q (p ++ [s]) st1 st' (inv_step s h e) (fun x => hq (List.mem_cons_of_mem _ x)) hs (by simpa using hK)
      rw [ih]
      cases s with
      | respond => exact absurd (by simp) hq
      | new =>
        cases e
        simp only [callsOn, List.filterMap_cons]
        rw [List.getElem?_append_left h.first]
      | call v f =>
        have hk : kinds (p ++ .call v f :: q) = kinds p ++ kinds q := by rw [kinds_append]; simp [kinds]
        simp only [step] at e
        split at e
        · cases e
        rename_i o ho
        split at e
        · cases e
        rename_i r hr
        have hl : v < (kinds p).length := by
          rw [← h.length]
          exact (List.getElem?_eq_some_iff.1 ho).1
        have hKv : K[v]? = (kinds p)[v]? := by rw [← hK, hk, List.getElem?_append_left hl]
        cases hf : f r with
        | none => rw [hf] at e; cases e
        | some r' =>
          rw [hf] at e
          cases e
          have hcons : callsOn (fun w => K[w]? = some true) (.call v f :: q) = (if K[v]? = some true then [f] else []) ++ callsOn (fun w => K[w]? = some true) q := by
            by_cases e : K[v]? = some true <;> simp [callsOn, e]
          rw [hcons]
          cases hb : (kinds p)[v] with
          | true =>
            have hb' : (kinds p)[v]? = some true := by rw [List.getElem?_eq_getElem hl, hb]
            have := h.respond v hb'
            rw [ho] at this
            cases this
            rw [if_pos (hKv.trans hb'), List.getElem?_set_self h.first, hr]
            simp [hf]
          | false =>
            have hb' : (kinds p)[v]? = some false := by rw [List.getElem?_eq_getElem hl, hb]
            obtain ⟨o', h1, h2, -⟩ := h.new v hb'
            rw [ho] at h2
            cases h2
            rw [if_neg (by rw [hKv, hb']; simp), List.getElem?_set_ne h1]
            simp

/-- **C103**, `Respond`: whichever of the responses a request has given is returned, what is sent are the methods called since the last `Respond`, on whichever of them, and nothing else: nothing of what was set before, for this request
or for an earlier one (`old`), and nothing of what was set on responses made by `NewResponse`. -/
theorem C103_respond (old : Fields) (p q : List Stmt) (last : .respond ∉ q) (st : State) (h : run old (p ++ .respond :: q) = some st) (v : Nat)
    (hv : (kinds (p ++ .respond :: q))[v]? = some true) :
    returned st v = built (callsOn (fun w => (kinds (p ++ .respond :: q))[w]? = some true) q) := by
  have hinv := inv_run _ [] _ _ (inv_start old) h
  rw [returned, hinv.respond v hv]
  unfold run at h
  rw [List.foldlM_append] at h
  cases h1 : p.foldlM step ⟨[old], []⟩ with
  | none => rw [h1] at h; cases h
  | some st1 =>
    rw [h1] at h
    have i1 := inv_run p [] _ _ (inv_start old) h1
    rw [List.nil_append] at i1
    have h2 : (q.foldlM step ⟨st1.objects.modify 0 Fields.clear, st1.results ++ [0]⟩) = some st := h
    have i2 := inv_step .respond i1 (st' := ⟨st1.objects.modify 0 Fields.clear, st1.results ++ [0]⟩) rfl
    have := since_respond (kinds (p ++ .respond :: q)) q (p ++ [.respond]) _ st i2 last h2 (by simp)
    simp only [Option.bind_some]
    rw [this]
    have hc : (st1.objects.modify 0 Fields.clear)[0]? = some Fields.new := by
      have := i1.first
      rw [List.getElem?_modify, List.getElem?_eq_getElem this]
      rfl
    simp only [hc, Option.bind_some]
    rfl

/-- C103: a handler makes a response, looks at another one, and a middleware replaces it and says more through the first variable. -/
def scribble : List Stmt :=
  [.respond, .call 0 (fun f => some (f.code 201)), .new, .call 1 (fun f => some (f.bytes b!"draft")), .respond, .call 2 (fun f => some (f.code 503)), .call 1 (fun f => some (f.code 400)),
    .call 0 (fun f => some (f.bytes b!"later"))]

/-- C103: these statements can be run, whatever is left of an earlier response, and this is what the three responses are then. -/
example (old : Fields) : ∃ st, run old scribble = some st ∧ kinds scribble = [true, false, true] ∧
    returned st 0 = some { Fields.new with Code := 503, Body := b!"later" } ∧ returned st 1 = some { Fields.new with Code := 400, Body := b!"draft" } ∧
    returned st 2 = some { Fields.new with Code := 503, Body := b!"later" } := ⟨_, rfl, rfl, rfl, rfl, rfl⟩

end Indigo.Props
