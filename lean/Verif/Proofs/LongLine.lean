/-
Too long request lines.
-/
import Verif.Proofs.Outcome

namespace Indigo.Parser
open Indigo.Spec

/-- What follows a call of `Parse`. -/
def andFeed (F : Fold) (x : PState × PRes) (ds : List Bytes) : PState × PRes × List Bytes :=
  match x with
  | (p, .pending) => feed F p ds
  | (p, r) => (p, r, ds)

theorem feed_cons (F : Fold) (p : PState) (d : Bytes) (ds : List Bytes) :
    feed F p (d :: ds) = andFeed F (exec F p.state p d) ds := rfl

theorem andFeed_error (F : Fold) (p : PState) (e : Status.HTTPError) (ds : List Bytes) :
    andFeed F (p, .error e) ds = (p, .error e, ds) := rfl

theorem path_long (F : Fold) (ds : List Bytes) : ∀ (p : PState) (d : Bytes), p.startLine.mem.length ≤ p.startLine.max →
    p.startLine.max < p.startLine.mem.length + (d ++ ds.flatten).length →
    10 ∉ (d ++ ds.flatten).take (p.startLine.max - p.startLine.mem.length + 1) →
    (andFeed F (exec F .path p d) ds).2.1 = .error Status.ErrURITooLong ∧ (andFeed F (exec F .path p d) ds).1.req = p.req := by
  induction ds with
  | nil =>
    intro p d hk hl h10
    simp only [List.flatten_nil, List.append_nil] at hl h10
    have hb : ∀ x, p.startLine.max < p.startLine.mem.length + x.length → p.startLine.append x = none := by
      intro x hx; simp [Buf.append]; omega
    cases hc : cut 10 d with
    | none =>
      have : step F .path p d = .ret p (.error Status.ErrURITooLong) := by
        simp only [step, stepPath]; rw [show LF = 10 from rfl, hc]; simp only [hb d hl]
      rw [exec_ret this]; exact ⟨rfl, rfl⟩
    | some x =>
      obtain ⟨line, rest⟩ := x
      obtain ⟨rfl, hn⟩ := cut_some hc
      have hlen : p.startLine.max < p.startLine.mem.length + line.length := by
        apply Nat.lt_of_not_le
        intro hle
        apply h10
        rw [List.take_append, List.take_of_length_le (by omega)]
        obtain ⟨j, hj⟩ : ∃ j, p.startLine.max - p.startLine.mem.length + 1 - line.length = j + 1 := ⟨_, (by omega : _ = (p.startLine.max - p.startLine.mem.length - line.length) + 1)⟩
        rw [hj]; simp
      have : step F .path p (line ++ 10 :: rest) = .ret p (.error Status.ErrURITooLong) := by
        simp only [step, stepPath]; rw [show LF = 10 from rfl, hc]; simp only [hb line hlen]
      rw [exec_ret this]; exact ⟨rfl, rfl⟩
  | cons d' ds ih =>
    intro p d hk hl h10
    cases hc : cut 10 d with
    | none =>
      by_cases hfit : p.startLine.mem.length + d.length ≤ p.startLine.max
      · have hb : p.startLine.append d = some { p.startLine with mem := p.startLine.mem ++ d } := by
          simp [Buf.append]; omega
        have : step F .path p d = .ret { p with startLine := { p.startLine with mem := p.startLine.mem ++ d }, state := .path } .pending := by
          simp only [step, stepPath]; rw [show LF = 10 from rfl, hc]; simp only [hb]
        rw [exec_ret this]
        show (feed F _ (d' :: ds)).2.1 = _ ∧ (feed F _ (d' :: ds)).1.req = _
        rw [feed_cons]
        refine ih _ d' ?_ ?_ ?_
        · simp; omega
        · simp at hl ⊢; omega
        · simp only [List.flatten_cons] at h10
          rw [List.take_append] at h10
          simp only [List.mem_append, not_or] at h10
          have := h10.2
          rw [show p.startLine.max - p.startLine.mem.length + 1 - d.length =
            p.startLine.max - (p.startLine.mem.length + d.length) + 1 by omega] at this
          simpa using this
      · have hb : p.startLine.append d = none := by simp [Buf.append]; omega
        have : step F .path p d = .ret p (.error Status.ErrURITooLong) := by
          simp only [step, stepPath]; rw [show LF = 10 from rfl, hc]; simp only [hb]
        rw [exec_ret this]; exact ⟨rfl, rfl⟩
    | some x =>
      obtain ⟨line, rest⟩ := x
      obtain ⟨rfl, hn⟩ := cut_some hc
      have hlen : p.startLine.max < p.startLine.mem.length + line.length := by
        apply Nat.lt_of_not_le
        intro hle
        apply h10
        rw [List.append_assoc, List.take_append, List.take_of_length_le (by omega)]
        obtain ⟨j, hj⟩ : ∃ j, p.startLine.max - p.startLine.mem.length + 1 - line.length = j + 1 := ⟨_, (by omega : _ = (p.startLine.max - p.startLine.mem.length - line.length) + 1)⟩
        rw [hj]; simp
      have hb : p.startLine.append line = none := by simp [Buf.append]; omega
      have : step F .path p (line ++ 10 :: rest) = .ret p (.error Status.ErrURITooLong) := by
        simp only [step, stepPath]; rw [show LF = 10 from rfl, hc]; simp only [hb]
      rw [exec_ret this]; exact ⟨rfl, rfl⟩

theorem method_short (m : Bytes) (h : Method.parse m ≠ .Unknown) : m.length ≤ 7 := by
  have hmk := (Props.C15_method_recognised_iff m _ h).1 rfl
  generalize Method.parse m = k at h hmk
  subst hmk
  cases k <;> first | exact absurd rfl h | decide

theorem method_long (F : Fold) (segs : List Bytes) : ∀ (p : PState), p.state = .method → p.startLine.start = 0 →
    7 ≤ p.startLine.max → p.startLine.mem.length ≤ p.startLine.max → 32 ∉ p.startLine.mem →
    LongLine p.startLine.max (p.startLine.mem ++ segs.flatten) →
    (∃ e ∈ longErrors, (feed F p segs).2.1 = .error e) ∧ ∃ m, (feed F p segs).1.req = { p.req with Method := m } := by
  induction segs with
  | nil =>
    intro p hs h0 h7 hk h32 hl
    simp only [List.flatten_nil, List.append_nil] at hl
    rcases hl with ⟨h, _⟩ | ⟨m, line, h, _⟩
    · omega
    · rw [h] at h32; simp at h32
  | cons d ds ih =>
    intro p hs h0 h7 hk h32 hl
    rw [feed_cons, hs]
    cases hc : cut 32 d with
    | none =>
      by_cases hfit : p.startLine.mem.length + d.length ≤ p.startLine.max
      · have hb : p.startLine.append d = some { p.startLine with mem := p.startLine.mem ++ d } := by
          simp [Buf.append]; omega
        have : step F .method p d = .ret { p with startLine := { p.startLine with mem := p.startLine.mem ++ d } } .pending := by
          simp only [step, stepMethod]; rw [show SP = 32 from rfl, hc]; simp only [hb]
        rw [exec_ret this]
        refine ih _ hs h0 h7 (by simpa using hfit) ?_ ?_
        · simp [h32, cut_none.1 hc]
        · simpa using hl
      · have hb : p.startLine.append d = none := by simp [Buf.append]; omega
        have : step F .method p d = .ret p (.error Status.ErrTooLongRequestLine) := by
          simp only [step, stepMethod]; rw [show SP = 32 from rfl, hc]; simp only [hb]
        rw [exec_ret this]
        exact ⟨⟨_, by simp [longErrors], rfl⟩, _, rfl⟩
    | some x =>
      obtain ⟨m, rest⟩ := x
      obtain ⟨rfl, hn⟩ := cut_some hc
      -- the line behind the method, or a long method
      have hcase : p.startLine.max < (p.startLine.mem ++ m).length ∨
          (p.startLine.max < (rest ++ ds.flatten).length ∧ 10 ∉ (rest ++ ds.flatten).take (p.startLine.max + 1)) := by
        rcases hl with ⟨hl, h⟩ | ⟨m', line, e, h1, h2, h3⟩
        · left
          apply Nat.lt_of_not_le
          intro hle
          apply h
          rw [List.flatten_cons, List.append_assoc, ← List.append_assoc, List.take_append, List.take_of_length_le (by omega)]
          obtain ⟨j, hj⟩ : ∃ j, p.startLine.max + 1 - (p.startLine.mem ++ m).length = j + 1 := ⟨_, (by omega : _ = (p.startLine.max - (p.startLine.mem ++ m).length) + 1)⟩
          rw [hj]; simp
        · right
          have e' : (p.startLine.mem ++ m) ++ 32 :: (rest ++ ds.flatten) = m' ++ 32 :: line := by simpa using e
          obtain ⟨_, rfl⟩ := cut_unique e' (by simp [h32, hn]) h1
          exact ⟨h2, h3⟩
      have fin : ∀ (sl : Buf) (v : Bytes), sl.max = p.startLine.max → sl.mem.length ≤ sl.max →
          (v = p.startLine.mem ++ m) → step F .method p (m ++ 32 :: rest) = finishMethod { p with startLine := sl } v rest →
          (∃ e ∈ longErrors, (andFeed F (exec F .method p (m ++ 32 :: rest)) ds).2.1 = .error e) ∧
            ∃ k, (andFeed F (exec F .method p (m ++ 32 :: rest)) ds).1.req = { p.req with Method := k } := by
        intro sl v hmax hle hv hst
        by_cases hv0 : v.length = 0
        · rw [finishMethod, if_pos hv0] at hst
          rw [exec_ret hst]
          exact ⟨⟨_, by simp [longErrors], rfl⟩, _, rfl⟩
        by_cases hm : Method.parse v = .Unknown
        · rw [finishMethod, if_neg hv0] at hst
          dsimp only at hst
          rw [if_pos hm] at hst
          rw [exec_ret hst]
          exact ⟨⟨_, by simp [longErrors], rfl⟩, _, rfl⟩
        · rw [finishMethod, if_neg hv0] at hst
          dsimp only at hst
          rw [if_neg hm] at hst
          rw [exec_goto hst]
          have hshort := method_short v hm
          rw [hv] at hshort
          rcases hcase with hcase | ⟨h1, h2⟩
          · omega
          · have := path_long F ds { p with startLine := sl, req := { p.req with Method := Method.parse v } } rest hle ?_ ?_
            · exact ⟨⟨Status.ErrURITooLong, by simp [longErrors], this.1⟩, _, this.2⟩
            · dsimp only; omega
            · dsimp only
              rw [hmax]
              intro hmem
              refine h2 (List.mem_of_mem_take (i := p.startLine.max - sl.mem.length + 1) ?_)
              rw [List.take_take, Nat.min_eq_left (by omega)]
              exact hmem
      by_cases hseg : p.startLine.mem = []
      · refine fin p.startLine m rfl hk (by rw [hseg]; rfl) ?_
        simp only [step, stepMethod]; rw [show SP = 32 from rfl, hc]
        simp [takeMethod, Buf.segLen, hseg]
      · have hsl : p.startLine.segLen ≠ 0 := by
          simp [Buf.segLen, h0, hseg]
        by_cases hfit : p.startLine.mem.length + m.length ≤ p.startLine.max
        · have hb : p.startLine.append m = some { p.startLine with mem := p.startLine.mem ++ m } := by
            simp [Buf.append]; omega
          refine fin { p.startLine with mem := p.startLine.mem ++ m, start := (p.startLine.mem ++ m).length } (p.startLine.mem ++ m)
            rfl (by simpa using hfit) rfl ?_
          simp only [step, stepMethod]; rw [show SP = 32 from rfl, hc]
          simp [takeMethod, hsl, hb, Buf.finish, Buf.seg, h0]
        · have hb : p.startLine.append m = none := by simp [Buf.append]; omega
          have : step F .method p (m ++ 32 :: rest) = .ret p (.error Status.ErrTooLongRequestLine) := by
            simp only [step, stepMethod]; rw [show SP = 32 from rfl, hc]
            simp [takeMethod, hsl, hb]
          rw [exec_ret this]
          exact ⟨⟨_, by simp [longErrors], rfl⟩, _, rfl⟩

end Indigo.Parser
