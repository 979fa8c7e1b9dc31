/-
The parser's outcome does not depend on how the stream is cut into segments.
-/
import Verif.Proofs.ParserBase
import Verif.Spec.Head

namespace Indigo

theorem cut_append_none {c : Byte} {d1 : Bytes} (h : cut c d1 = none) (d2 : Bytes) :
    cut c (d1 ++ d2) = (cut c d2).map (fun x => (d1 ++ x.1, x.2)) := by
  have h1 := cut_none.1 h
  cases h2 : cut c d2 with
  | none =>
    have := cut_none.1 h2
    simp [cut_none, h1, this]
  | some x =>
    obtain ⟨a, b⟩ := x
    obtain ⟨e, hn⟩ := cut_some h2
    subst e
    have := @cut_append c (d1 ++ a) b (by simp [h1, hn])
    simpa using this

theorem cut_append_some {c : Byte} {d1 a b : Bytes} (h : cut c d1 = some (a, b)) (d2 : Bytes) :
    cut c (d1 ++ d2) = some (a, b ++ d2) := by
  obtain ⟨e, hn⟩ := cut_some h
  subst e
  simpa using @cut_append c a (b ++ d2) hn

namespace Buf

/-- The write offset is inside the memory. -/
def OK (b : Buf) : Prop := b.start ≤ b.mem.length

theorem append_append (b : Buf) (d1 d2 : Bytes) :
    b.append (d1 ++ d2) = (b.append d1).bind (·.append d2) := by
  unfold append
  by_cases h : b.mem.length + d1.length > b.max
  · rw [if_pos h, if_pos (by simp; omega)]; rfl
  · rw [if_neg h]
    simp only [Option.bind_some]
    by_cases h2 : b.mem.length + (d1 ++ d2).length > b.max
    · rw [if_pos h2, if_pos (by simp at *; omega)]
    · rw [if_neg h2, if_neg (by simp at *; omega)]; simp

theorem append_some {b b' : Buf} {d : Bytes} (h : b.append d = some b') :
    b' = { b with mem := b.mem ++ d } ∧ b.mem.length + d.length ≤ b.max := by
  unfold append at h
  split at h
  · cases h
  · cases h; exact ⟨rfl, by omega⟩

theorem append_isSome {b : Buf} {d : Bytes} (h : b.mem.length + d.length ≤ b.max) :
    b.append d = some { b with mem := b.mem ++ d } := by
  unfold append; rw [if_neg (by omega)]

theorem append_nil {b : Buf} (h : b.mem.length ≤ b.max) : b.append [] = some b := by
  unfold append; rw [if_neg (by simp; omega)]; simp

theorem seg_append {b : Buf} (h : b.OK) (d : Bytes) :
    ({ b with mem := b.mem ++ d } : Buf).seg = b.seg ++ d := by
  unfold seg
  rw [List.drop_append_of_le_length h]

theorem segLen_eq (b : Buf) : b.segLen = b.seg.length := by
  simp [segLen, seg]

theorem OK_append {b b' : Buf} (h : b.OK) {d : Bytes} (h' : b.append d = some b') : b'.OK := by
  obtain ⟨rfl, _⟩ := append_some h'
  unfold OK at *; simp; omega

end Buf

namespace Parser
open Spec

theorem clDigits_split (n : Int) (d : Bytes) :
    ∃ a, d = a ++ (clDigits n d).2 ∧ (∀ c ∈ a, c = SP ∨ (48 ≤ c ∧ c ≤ 57)) ∧
      (∀ c cs, (clDigits n d).2 = c :: cs → ¬ (c = SP ∨ (48 ≤ c ∧ c ≤ 57))) := by
  induction d generalizing n with
  | nil => exact ⟨[], by simp [clDigits]⟩
  | cons c cs ih =>
    simp only [clDigits]
    split
    · rename_i h
      obtain ⟨a, h1, h2, h3⟩ := ih n
      refine ⟨c :: a, by simpa using h1, ?_, h3⟩
      intro x hx
      rcases List.mem_cons.1 hx with rfl | hx
      · exact Or.inl h
      · exact h2 x hx
    · split
      · rename_i h1 h2
        refine ⟨[], by simp, by simp, ?_⟩
        intro x xs hx
        simp at hx
        obtain ⟨rfl, rfl⟩ := hx
        rintro (h | ⟨h, h'⟩)
        · exact h1 h
        · rcases h2 with h2 | h2
          · exact absurd h (UInt8.not_le.2 h2)
          · exact absurd h' (UInt8.not_le.2 h2)
      · rename_i h1 h2
        obtain ⟨a, h1', h2', h3⟩ := ih (wrap64 (n * 10 + (c - 48).toNat))
        refine ⟨c :: a, by simpa using h1', ?_, h3⟩
        intro x hx
        rcases List.mem_cons.1 hx with rfl | hx
        · right
          constructor
          · exact UInt8.not_lt.1 (fun h => h2 (Or.inl h))
          · exact UInt8.not_lt.1 (fun h => h2 (Or.inr h))
        · exact h2' x hx

theorem clDigits_append (n : Int) (d1 d2 : Bytes) :
    clDigits n (d1 ++ d2) =
      if (clDigits n d1).2 = [] then clDigits (clDigits n d1).1 d2
      else ((clDigits n d1).1, (clDigits n d1).2 ++ d2) := by
  induction d1 generalizing n with
  | nil => simp [clDigits]
  | cons c cs ih =>
    simp only [List.cons_append, clDigits]
    split
    · exact ih n
    · split
      · simp
      · exact ih _

/-! ### States equal up to the request line buffer's history -/

/-- `q` is `p` except for the buffer position of the request line and the saved label. -/
def Sim (p q : PState) : Prop :=
  ∃ sl st, q = { p with startLine := sl, state := st } ∧ sl.max = p.startLine.max ∧ sl.seg = p.startLine.seg

theorem Sim.refl (p : PState) : Sim p p := ⟨p.startLine, p.state, rfl, rfl, rfl⟩

/-- Same result, same request; the same parser after completion. -/
def OutAgree (a b : PState × PRes) : Prop :=
  a.2 = b.2 ∧ a.1.req = b.1.req ∧ (∀ ex, a.2 = .completed ex → a.1 = b.1)

theorem OutAgree.refl (a : PState × PRes) : OutAgree a a := ⟨rfl, rfl, fun _ _ => rfl⟩

theorem OutAgree.trans {a b c : PState × PRes} (h : OutAgree a b) (h' : OutAgree b c) : OutAgree a c :=
  ⟨h.1.trans h'.1, h.2.1.trans h'.2.1, fun ex e => (h.2.2 ex e).trans (h'.2.2 ex (h.1 ▸ e))⟩

theorem OutAgree.symm {a b : PState × PRes} (h : OutAgree a b) : OutAgree b a :=
  ⟨h.1.symm, h.2.1.symm, fun ex e => (h.2.2 ex (h.1.trans e)).symm⟩

/-- The request line's rest fits into the buffer. -/
def LineFits (p : PState) (d : Bytes) : Prop :=
  p.startLine.OK ∧
  (LF ∉ d → p.startLine.mem.length + d.length ≤ p.startLine.max) ∧
  (∀ line rest, d = line ++ LF :: rest → LF ∉ line → p.startLine.mem.length + line.length ≤ p.startLine.max)

/-- Two steps that lead to the same outcome. -/
def StepAgree : Step → Step → Prop
  | .ret p r, .ret q s => OutAgree (p, r) (q, s)
  | .goto l p d, .goto l' q d' =>
    l = l' ∧ d = d' ∧ Sim p q ∧ l ≠ .method ∧ (l = .path → LineFits p d ∧ LineFits q d)
  | _, _ => False

theorem cleanup_sim {p q : PState} (h : Sim p q) : cleanup p = cleanup q := by
  obtain ⟨sl, st, rfl, h1, h2⟩ := h
  simp [cleanup, Buf.clear, h1]

/-- Case distinction on both (equal) branches. -/
local macro "fin" : tactic => `(tactic| (
  repeat' split
  all_goals first
    | (refine ⟨rfl, rfl, ?_⟩; intro ex h; first | assumption | (cases h; done))
    | (refine ⟨rfl, rfl, ⟨_, _, rfl, ?_, ?_⟩, by simp, by simp⟩ <;> assumption)
    | (refine ⟨rfl, rfl, ⟨_, _, rfl, ?_, ?_⟩, by simp [valueLabel_ne], by simp [valueLabel_ne]⟩ <;> assumption)))

theorem step_sim (F : Fold) {l : Label} {p q : PState} (d : Bytes) (hs : Sim p q) (hl : l ≠ .method)
    (hp : l = .path → LineFits p d ∧ LineFits q d) : StepAgree (step F l p d) (step F l q d) := by
  have hc := cleanup_sim hs
  obtain ⟨sl, st, rfl, h1, h2⟩ := hs
  cases l
  · exact absurd rfl hl
  · obtain ⟨⟨ok1, f1, f2⟩, ⟨ok2, g1, g2⟩⟩ := hp rfl
    simp only [step, stepPath]
    cases hcut : cut LF d with
    | none =>
      dsimp only
      have hn := cut_none.1 hcut
      rw [Buf.append_isSome (f1 hn), Buf.append_isSome (g1 hn)]
      exact ⟨rfl, rfl, fun ex h => by cases h⟩
    | some x =>
      obtain ⟨line, rest⟩ := x
      obtain ⟨e, hn⟩ := cut_some hcut
      dsimp only
      rw [Buf.append_isSome (f2 line rest e hn), Buf.append_isSome (g2 line rest e hn)]
      simp only [Buf.finish]
      rw [Buf.seg_append ok1]
      have h3 := Buf.seg_append ok2 line
      dsimp only at h3
      rw [h3, h2]
      unfold finishPath
      dsimp only
      have ho := requestLine_out p.req (p.startLine.seg ++ line)
      split
      · rename_i hr
        refine ⟨rfl, rfl, fun ex h => ?_⟩
        rw [hr] at ho
        simp only [reduceCtorEq, Option.some.injEq, false_or] at ho
        dsimp only at h
        rcases ho with ho | ⟨e, ho⟩ <;> · rw [h] at ho; cases ho
      · refine ⟨rfl, rfl, ⟨_, _, rfl, h1, ?_⟩, by simp, by simp⟩
        simp [Buf.seg]
  · simp only [step, stepHeaderKey]
    fin
  · simp only [step, stepContentLength]
    fin
  · simp only [step, stepContentLengthCR]
    fin
  · simp only [step, stepHeaderValue]
    fin
  · simp only [step, stepCRLFCR]
    fin

theorem exec_sim (F : Fold) : ∀ (l : Label) (p : PState) (d : Bytes) (q : PState), Sim p q → l ≠ .method →
    (l = .path → LineFits p d ∧ LineFits q d) → OutAgree (exec F l p d) (exec F l q d) := by
  apply exec_induct F (motive := fun l p d => ∀ q, Sim p q → l ≠ .method →
    (l = .path → LineFits p d ∧ LineFits q d) → OutAgree (exec F l p d) (exec F l q d))
  intro l p d ih q hs hl hp
  have h := step_sim F d hs hl hp
  rw [exec_eq F l p d, exec_eq F l q d]
  cases h1 : step F l p d with
  | ret p' r =>
    cases h2 : step F l q d with
    | ret q' s => rw [h1, h2] at h; exact h
    | goto l'' q' d'' => rw [h1, h2] at h; exact h.elim
  | goto l' p' d' =>
    cases h2 : step F l q d with
    | ret q' s => rw [h1, h2] at h; exact h.elim
    | goto l'' q' d'' =>
      rw [h1, h2] at h
      obtain ⟨rfl, rfl, hs', hl', hp'⟩ := h
      exact ih l' p' d' h1 q' hs' hl' hp'

theorem exec_of_stepAgree (F : Fold) {l l' : Label} {p q : PState} {d d' : Bytes}
    (h : StepAgree (step F l p d) (step F l' q d')) : OutAgree (exec F l p d) (exec F l' q d') := by
  rw [exec_eq F l p d, exec_eq F l' q d']
  cases h1 : step F l p d with
  | ret p' r =>
    cases h2 : step F l' q d' with
    | ret q' s => rw [h1, h2] at h; exact h
    | goto l'' q' d'' => rw [h1, h2] at h; exact h.elim
  | goto l'' p' d'' =>
    cases h2 : step F l' q d' with
    | ret q' s => rw [h1, h2] at h; exact h.elim
    | goto l''' q' d''' =>
      rw [h1, h2] at h
      obtain ⟨rfl, rfl, hs', hl', hp'⟩ := h
      exact exec_sim F _ _ _ _ hs' hl' hp'

end Parser
end Indigo
