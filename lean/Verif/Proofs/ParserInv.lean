/-
Invariants of the parser over all streams and segmentations: limits, absence of panics.
-/
import Verif.Proofs.ParserSplit2

namespace Indigo.Parser
open Indigo.Spec

/-- Induction over everything the parser does with a stream `S`. `a` is what has been consumed. -/
theorem feed_inv (F : Fold) (S : Bytes) (I : Label → PState → Bytes → Prop) (Q : PState → PRes → Prop)
    (hret : ∀ l p a d p' r, a ++ d <+: S → I l p a → step F l p d = .ret p' r →
      Q p' r ∧ (r = .pending → I p'.state p' (a ++ d)))
    (hgoto : ∀ l p a d l' p' d', a ++ d <+: S → I l p a → step F l p d = .goto l' p' d' →
      ∃ c, d = c ++ d' ∧ I l' p' (a ++ c))
    (hpend : ∀ p a, I p.state p a → Q p .pending) :
    ∀ segs p a, a ++ segs.flatten = S → I p.state p a → Q (feed F p segs).1 (feed F p segs).2.1 := by
  have hexec : ∀ l p d a, a ++ d <+: S → I l p a →
      Q (exec F l p d).1 (exec F l p d).2 ∧
      ((exec F l p d).2 = .pending → I (exec F l p d).1.state (exec F l p d).1 (a ++ d)) := by
    intro l p d
    apply exec_induct F (motive := fun l p d => ∀ a, a ++ d <+: S → I l p a →
      Q (exec F l p d).1 (exec F l p d).2 ∧
      ((exec F l p d).2 = .pending → I (exec F l p d).1.state (exec F l p d).1 (a ++ d)))
    intro l p d ih a ha hI
    cases hs : step F l p d with
    | ret p' r => rw [exec_ret hs]; exact hret l p a d p' r ha hI hs
    | goto l' p' d' =>
      obtain ⟨c, rfl, hI'⟩ := hgoto l p a d l' p' d' ha hI hs
      rw [exec_goto hs]
      have := ih l' p' d' hs (a ++ c) (by simpa using ha) hI'
      simpa using this
  intro segs
  induction segs with
  | nil => intro p a _ hI; exact hpend p a hI
  | cons d ds ih =>
    intro p a ha hI
    obtain ⟨h1, h2⟩ := hexec p.state p d a ⟨ds.flatten, by rw [← ha]; simp⟩ hI
    simp only [feed, parse_eq_exec]
    cases hr : (exec F p.state p d).2 with
    | pending =>
      have e : exec F p.state p d = ((exec F p.state p d).1, .pending) := by rw [← hr]
      rw [e]
      exact ih _ (a ++ d) (by rw [← ha]; simp) (h2 hr)
    | completed x =>
      have e : exec F p.state p d = ((exec F p.state p d).1, .completed x) := by rw [← hr]
      rw [hr] at h1; rw [e]; exact h1
    | error x =>
      have e : exec F p.state p d = ((exec F p.state p d).1, .error x) := by rw [← hr]
      rw [hr] at h1; rw [e]; exact h1
    | panic =>
      have e : exec F p.state p d = ((exec F p.state p d).1, .panic) := by rw [← hr]
      rw [hr] at h1; rw [e]; exact h1

/-- Jumps consume a prefix of the data. -/
theorem step_goto_suffix (F : Fold) {l : Label} {p : PState} {d : Bytes} {l' p' d'}
    (h : step F l p d = .goto l' p' d') : ∃ c, d = c ++ d' := by
  cases l <;> simp only [step] at h
  · unfold stepMethod finishMethod at h
    split at h
    · split at h <;> cases h
    · rename_i m rest hc
      obtain ⟨rfl, _⟩ := cut_some hc
      split at h
      · cases h
      · dsimp only at h
        split at h
        · cases h
        · split at h
          · cases h
          · cases h; exact ⟨m ++ [SP], by simp⟩
  · unfold stepPath at h
    split at h
    · split at h <;> cases h
    · rename_i m rest hc
      obtain ⟨rfl, _⟩ := cut_some hc
      split at h
      · cases h
      · obtain ⟨rfl, _⟩ := finishPath_goto h
        exact ⟨m ++ [LF], by simp⟩
  · unfold stepHeaderKey at h
    split at h
    · cases h
    · rename_i c cs
      split at h
      · cases h
      split at h
      · cases h; exact ⟨[c], rfl⟩
      split at h
      · split at h <;> cases h
      · rename_i k rest hc
        obtain ⟨e, _⟩ := cut_some hc
        split at h
        · cases h
        · simp only [Buf.finish] at h
          split at h
          · cases h
          · cases h; exact ⟨k ++ [COLON], by simp [e]⟩
  · unfold stepContentLength at h
    cases hcl : clDigits p.contentLength d with
    | mk n rest =>
    obtain ⟨v, rfl⟩ : ∃ v, d = v ++ rest := by
      have := clDigits_split p.contentLength d
      rw [hcl] at this; obtain ⟨v, hv, _⟩ := this; exact ⟨v, hv⟩
    simp only [hcl] at h
    split at h
    · cases h
    · rename_i c cs
      split at h
      · cases h; exact ⟨v ++ [c], by simp⟩
      split at h
      · cases h; exact ⟨v ++ [c], by simp⟩
      · cases h
  · unfold stepContentLengthCR at h
    split at h
    · cases h
    · rename_i c cs
      split at h
      · cases h
      · cases h; exact ⟨[c], rfl⟩
  · unfold stepHeaderValue at h
    split at h
    · split at h
      · cases h
      · dsimp only at h; split at h <;> cases h
    · rename_i line rest hc
      obtain ⟨rfl, _⟩ := cut_some hc
      split at h
      · cases h
      · dsimp only at h
        split at h
        · cases h
        · simp only [Buf.finish] at h
          split at h
          · cases h
          · cases h; exact ⟨line ++ [LF], by simp⟩
  · unfold stepCRLFCR at h
    split at h
    · cases h
    · split at h <;> cases h

/-! ### Limits -/

/-- Buffers within their maxima, at most `headersNumber` headers, values within the length limit. -/
structure Lim (p0 : PState) (k : Nat) (p : PState) : Prop where
  cfg : p.cfg = p0.cfg
  maxS : p.startLine.max = p0.startLine.max
  maxK : p.keyBuf.max = p0.keyBuf.max
  maxV : p.valBuf.max = p0.valBuf.max
  memS : p.startLine.mem.length ≤ p.startLine.max
  memK : p.keyBuf.mem.length ≤ p.keyBuf.max
  memV : p.valBuf.mem.length ≤ p.valBuf.max
  count : p.req.Headers.pairs.length + k ≤ p.headersNumber
  values : ∀ x ∈ p.req.Headers.pairs, x.Value.length ≤ p.cfg.maxValueLength

/-- Invariant at a label. -/
def LimAt (p0 : PState) (l : Label) (p : PState) : Prop :=
  Lim p0 (if l = .headerValue then 1 else 0) p ∧ p.headersNumber ≤ p.cfg.maxNumber ∧
    (l = .method → p.state = .method)

/-- What is guaranteed for every outcome. -/
def LimOut (p0 : PState) (p : PState) : Prop :=
  p.startLine.mem.length ≤ p0.startLine.max ∧ p.keyBuf.mem.length ≤ p0.keyBuf.max ∧
  p.valBuf.mem.length ≤ p0.valBuf.max ∧ p.req.Headers.pairs.length ≤ p0.cfg.maxNumber ∧
  ∀ x ∈ p.req.Headers.pairs, x.Value.length ≤ p0.cfg.maxValueLength

theorem LimAt.out {p0 : PState} {l : Label} {p : PState} (h : LimAt p0 l p) : LimOut p0 p := by
  obtain ⟨⟨a, b, c, d, e, f, g, i, j⟩, k, _⟩ := h
  refine ⟨by omega, by omega, by omega, by rw [← a]; omega, by rw [← a]; exact j⟩

theorem requestLine_headers (r : Request) (line : Bytes) : (requestLine r line).1.Headers = r.Headers := by
  unfold requestLine
  dsimp only
  repeat' split
  all_goals rfl

theorem trimLeftSp_length (s : Bytes) : (trimLeftSp s).length ≤ s.length := by
  induction s with
  | nil => simp [trimLeftSp]
  | cons c cs ih => simp only [trimLeftSp]; split <;> simp <;> omega

theorem storeHeader_pairs (F : Fold) (p : PState) (k v : Bytes) :
    (storeHeader F p k v).req.Headers.pairs = p.req.Headers.pairs ++ [⟨k, v⟩] := by
  unfold storeHeader
  simp only
  repeat' split
  all_goals rfl

theorem Buf.append_mem {b b' : Buf} {d : Bytes} (h : b.append d = some b') :
    b'.mem = b.mem ++ d ∧ b'.max = b.max ∧ b'.start = b.start ∧ b'.mem.length ≤ b'.max := by
  unfold Buf.append at h
  split at h
  · simp at h
  · simp at h; subst h; simp; omega

theorem takeMethod_mem {b sl : Buf} {m v : Bytes} (h : takeMethod b m = some (v, sl))
    (hb : b.mem.length ≤ b.max) : sl.max = b.max ∧ sl.mem.length ≤ sl.max := by
  unfold takeMethod at h
  split at h
  · simp at h; rw [← h.2]; exact ⟨rfl, hb⟩
  · split at h
    · simp at h
    · rename_i b' hb'
      obtain ⟨h1, h2, h3, h4⟩ := Buf.append_mem hb'
      simp [Buf.finish] at h
      rw [← h.2]; exact ⟨h2, by simpa [h2] using h4⟩

/-- The invariant is kept by a step. -/
def LimStep (p0 : PState) : Step → Prop
  | .ret p' r => LimOut p0 p' ∧ (r = .pending → LimAt p0 p'.state p')
  | .goto l' p' _ => LimAt p0 l' p'

theorem storeHeader_rest (F : Fold) (p : PState) (k v : Bytes) :
    (storeHeader F p k v).keyBuf = p.keyBuf ∧ (storeHeader F p k v).valBuf = p.valBuf ∧
    (storeHeader F p k v).headersNumber = p.headersNumber ∧ (storeHeader F p k v).cfg = p.cfg ∧
    (storeHeader F p k v).startLine = p.startLine := by
  unfold storeHeader; simp

theorem step_lim (F : Fold) (p0 : PState) {l : Label} {p : PState} {d : Bytes} (h : LimAt p0 l p) :
    LimStep p0 (step F l p d) := by
  have ho := h.out
  obtain ⟨L, hn, hm⟩ := h
  have hk0 : ∀ {k}, Lim p0 k p → Lim p0 0 p := fun h => ⟨h.cfg, h.maxS, h.maxK, h.maxV, h.memS, h.memK, h.memV, by have := h.count; omega, h.values⟩
  cases l <;> simp only [step]
  · -- method
    have L0 := hk0 L
    unfold stepMethod
    split
    · split
      · exact ⟨ho, fun e => by cases e⟩
      · rename_i sl hsl
        obtain ⟨h1, h2, h3, h4⟩ := Buf.append_mem hsl
        have : LimAt p0 p.state { p with startLine := sl } := by
          have hm' := hm rfl
          refine ⟨⟨L.cfg, by simp [h2, L.maxS], L.maxK, L.maxV, h4, L.memK, L.memV, by rw [hm']; exact L.count, L.values⟩, hn, fun _ => hm'⟩
        exact ⟨this.out, fun _ => this⟩
    · rename_i m rest hc
      split
      · exact ⟨ho, fun e => by cases e⟩
      · rename_i mv sl hsl
        obtain ⟨h1, h2⟩ := takeMethod_mem hsl L.memS
        unfold finishMethod
        have base : ∀ mt, LimAt p0 .path { p with startLine := sl, req := { p.req with Method := mt } } := fun mt =>
          ⟨⟨L.cfg, by simp [h1, L.maxS], L.maxK, L.maxV, h2, L.memK, L.memV, L.count, L.values⟩, hn, fun e => by cases e⟩
        split
        · exact ⟨(base p.req.Method).out, fun e => by cases e⟩
        · dsimp only
          split
          · exact ⟨(base _).out, fun e => by cases e⟩
          · exact base _
  · -- path
    unfold stepPath
    split
    · split
      · exact ⟨ho, fun e => by cases e⟩
      · rename_i sl hsl
        obtain ⟨h1, h2, h3, h4⟩ := Buf.append_mem hsl
        have : LimAt p0 .path { p with startLine := sl, state := .path } :=
          ⟨⟨L.cfg, by simp [h2, L.maxS], L.maxK, L.maxV, h4, L.memK, L.memV, L.count, L.values⟩, hn, fun e => by cases e⟩
        exact ⟨this.out, fun _ => this⟩
    · rename_i line rest hc
      split
      · exact ⟨ho, fun e => by cases e⟩
      · rename_i sl hsl
        obtain ⟨h1, h2, h3, h4⟩ := Buf.append_mem hsl
        simp only [Buf.finish, finishPath]
        have hh := requestLine_headers p.req sl.seg
        have hout := requestLine_out p.req sl.seg
        cases hrl : requestLine p.req sl.seg with
        | mk r out =>
        rw [hrl] at hh hout
        simp only at hh hout
        have base : LimAt p0 .headerKey { p with startLine := { sl with start := sl.mem.length }, req := r } :=
          ⟨⟨L.cfg, by simp [h2, L.maxS], L.maxK, L.maxV, h4, L.memK, L.memV, by simp only [hh]; exact L.count, by simp only [hh]; exact L.values⟩, hn, fun e => by cases e⟩
        cases out with
        | some o =>
          refine ⟨base.out, ?_⟩
          intro e; subst e; simp at hout
        | none =>
          exact base
  · -- headerKey
    have L0 := hk0 L
    unfold stepHeaderKey
    have hclean : LimOut p0 (cleanup p) := by
      obtain ⟨o1, o2, o3, o4, o5⟩ := ho
      refine ⟨by simp [cleanup, Buf.clear], by simp [cleanup, Buf.clear], by simp [cleanup, Buf.clear], o4, o5⟩
    split
    · have : LimAt p0 .headerKey { p with state := .headerKey } := ⟨⟨L.cfg, L.maxS, L.maxK, L.maxV, L.memS, L.memK, L.memV, L.count, L.values⟩, hn, fun e => by cases e⟩
      exact ⟨this.out, fun _ => this⟩
    · rename_i c cs
      split
      · exact ⟨hclean, fun e => by cases e⟩
      split
      · exact ⟨L, hn, fun e => by cases e⟩
      split
      · split
        · exact ⟨ho, fun e => by cases e⟩
        · rename_i kb hkb
          obtain ⟨h1, h2, h3, h4⟩ := Buf.append_mem hkb
          have : LimAt p0 .headerKey { p with keyBuf := kb, state := .headerKey } :=
            ⟨⟨L.cfg, L.maxS, by simp [h2, L.maxK], L.maxV, L.memS, h4, L.memV, L.count, L.values⟩, hn, fun e => by cases e⟩
          exact ⟨this.out, fun _ => this⟩
      · rename_i k rest hc
        split
        · exact ⟨ho, fun e => by cases e⟩
        · rename_i kb hkb
          obtain ⟨h1, h2, h3, h4⟩ := Buf.append_mem hkb
          simp only [Buf.finish]
          have hcount := L.count
          simp at hcount
          split
          · refine ⟨?_, fun e => by cases e⟩
            obtain ⟨o1, o2, o3, o4, o5⟩ := ho
            exact ⟨o1, by rw [← L.maxK, ← h2]; exact h4, o3, o4, o5⟩
          · rename_i hnum
            refine ⟨⟨L.cfg, L.maxS, by simp [h2, L.maxK], L.maxV, L.memS, h4, L.memV, ?_, L.values⟩, by dsimp only at hnum ⊢; omega, fun h => absurd h (valueLabel_ne _).1⟩
            simp only
            split <;> omega
  · -- contentLength
    unfold stepContentLength
    cases hcl : clDigits p.contentLength d with
    | mk n rest =>
    dsimp only
    split
    · have : LimAt p0 .contentLength { p with contentLength := n, state := .contentLength } :=
        ⟨⟨L.cfg, L.maxS, L.maxK, L.maxV, L.memS, L.memK, L.memV, L.count, L.values⟩, hn, fun e => by cases e⟩
      exact ⟨this.out, fun _ => this⟩
    · have base : ∀ l, l ≠ .headerValue → l ≠ .method → LimAt p0 l { p with contentLength := n, req := { p.req with ContentLength := n } } := by
        intro l h1 h2
        refine ⟨⟨L.cfg, L.maxS, L.maxK, L.maxV, L.memS, L.memK, L.memV, ?_, L.values⟩, hn, fun h => absurd h h2⟩
        have := L.count
        simp [h1] at this ⊢; exact this
      split
      · exact base _ (by simp) (by simp)
      split
      · exact base _ (by simp) (by simp)
      · exact ⟨(base .contentLength (by simp) (by simp)).out, fun e => by cases e⟩
  · -- contentLengthCR
    unfold stepContentLengthCR
    split
    · have : LimAt p0 .contentLengthCR { p with state := .contentLengthCR } := ⟨⟨L.cfg, L.maxS, L.maxK, L.maxV, L.memS, L.memK, L.memV, L.count, L.values⟩, hn, fun e => by cases e⟩
      exact ⟨this.out, fun _ => this⟩
    · split
      · exact ⟨ho, fun e => by cases e⟩
      · exact ⟨L, hn, fun e => by cases e⟩
  · -- headerValue
    unfold stepHeaderValue
    split
    · split
      · exact ⟨ho, fun e => by cases e⟩
      · rename_i vb hvb
        obtain ⟨h1, h2, h3, h4⟩ := Buf.append_mem hvb
        have base : LimAt p0 .headerValue { p with valBuf := vb, state := .headerValue } :=
          ⟨⟨L.cfg, L.maxS, L.maxK, by simp [h2, L.maxV], L.memS, L.memK, h4, L.count, L.values⟩, hn, fun e => by cases e⟩
        dsimp only
        split
        · exact ⟨base.out, fun e => by cases e⟩
        · exact ⟨base.out, fun _ => base⟩
    · split
      · exact ⟨ho, fun e => by cases e⟩
      · rename_i line rest hc vb hvb
        obtain ⟨h1, h2, h3, h4⟩ := Buf.append_mem hvb
        have base : LimAt p0 .headerValue { p with valBuf := vb, state := .headerValue } :=
          ⟨⟨L.cfg, L.maxS, L.maxK, by simp [h2, L.maxV], L.memS, L.memK, h4, L.count, L.values⟩, hn, fun e => by cases e⟩
        dsimp only
        split
        · exact ⟨base.out, fun e => by cases e⟩
        · rename_i hsl
          simp only [Buf.finish]
          split
          · exact ⟨base.out, fun e => by cases e⟩
          · rename_i last hlast
            obtain ⟨s1, s2, s3, s4, s5⟩ := storeHeader_rest F
              { p with valBuf := { vb with start := vb.mem.length } } p.headerKey
              (if last = CR then (trimLeftSp vb.seg).dropLast else trimLeftSp vb.seg)
            have s6 := storeHeader_pairs F
              { p with valBuf := { vb with start := vb.mem.length } } p.headerKey
              (if last = CR then (trimLeftSp vb.seg).dropLast else trimLeftSp vb.seg)
            have hcount := L.count
            simp at hcount
            refine ⟨⟨?_, ?_, ?_, ?_, ?_, ?_, ?_, ?_, ?_⟩, ?_, fun e => by cases e⟩
            · rw [s4]; exact L.cfg
            · rw [s5]; exact L.maxS
            · rw [s1]; exact L.maxK
            · rw [s2]; simp [h2, L.maxV]
            · rw [s5]; exact L.memS
            · rw [s1]; exact L.memK
            · rw [s2]; exact h4
            · rw [s3, s6]; simp; exact hcount
            · rw [s4, s6]
              intro x hx
              simp at hx
              rcases hx with hx | rfl
              · exact L.values x hx
              · simp only
                have h5 := trimLeftSp_length vb.seg
                have h6 : vb.seg.length = vb.segLen := by simp [Buf.seg, Buf.segLen]
                split
                · simp; omega
                · omega
            · rw [s3, s4]; exact hn
  · -- CRLFCR
    unfold stepCRLFCR
    have hclean : LimOut p0 (cleanup p) := by
      obtain ⟨o1, o2, o3, o4, o5⟩ := ho
      refine ⟨by simp [cleanup, Buf.clear], by simp [cleanup, Buf.clear], by simp [cleanup, Buf.clear], o4, o5⟩
    split
    · have : LimAt p0 .headerValueCRLFCR { p with state := .headerValueCRLFCR } := ⟨⟨L.cfg, L.maxS, L.maxK, L.maxV, L.memS, L.memK, L.memV, L.count, L.values⟩, hn, fun e => by cases e⟩
      exact ⟨this.out, fun _ => this⟩
    · split
      · exact ⟨hclean, fun e => by cases e⟩
      · exact ⟨ho, fun e => by cases e⟩

/-! ### No panics -/

theorem requestLine_panic {r : Request} {line : Bytes} (h : (requestLine r line).2 = some .panic) :
    line.getLast? = some 32 := by
  unfold requestLine at h
  split at h
  · simp at h
  · rename_i a b hc
    obtain ⟨rfl, _⟩ := cutLast_some hc
    split at h
    · rename_i hb
      have : b = [] := by simpa using hb
      subst this; simp [SP]
    · dsimp only at h
      repeat' split at h
      all_goals simp at h

theorem trimLeftSp_nil {s : Bytes} (h : trimLeftSp s = []) : s = [] ∨ s.getLast? = some 32 := by
  induction s with
  | nil => exact .inl rfl
  | cons c cs ih =>
    simp only [trimLeftSp] at h
    split at h
    · rename_i hc
      right
      rcases ih h with rfl | h'
      · simp [hc]
      · rw [List.getLast?_cons, h']; rfl
    · simp at h

structure NPAt (l : Label) (p : PState) (a : Bytes) : Prop where
  okS : p.startLine.OK
  okV : p.valBuf.OK
  state : l = .method → p.state = .method
  path : l = .path → p.startLine.seg = [] ∨ p.startLine.seg.getLast? = a.getLast?
  value : l = .headerValue → (p.valBuf.seg = [] ∧ a.getLast? = some 58) ∨
    (p.valBuf.seg ≠ [] ∧ p.valBuf.seg.getLast? = a.getLast?)
  other : l ≠ .headerValue → p.valBuf.seg = []

def NPStep (a d : Bytes) : Step → Prop
  | .ret p' r => r ≠ .panic ∧ (r = .pending → NPAt p'.state p' (a ++ d))
  | .goto l' p' d' => ∃ c, d = c ++ d' ∧ NPAt l' p' (a ++ c)

theorem getLast?_app (s d : Bytes) : (s ++ d).getLast? = if d = [] then s.getLast? else d.getLast? := by
  cases d with
  | nil => simp
  | cons x xs => simp [List.getLast?_append, List.getLast?_cons]

theorem Buf.finish_facts (b : Buf) : b.finish.2.OK ∧ b.finish.2.seg = [] := by
  simp [Buf.finish, Buf.OK, Buf.seg]

theorem Buf.seg_append' {b b' : Buf} (h : b.OK) {d : Bytes} (h' : b.append d = some b') :
    b'.seg = b.seg ++ d := by
  obtain ⟨rfl, _⟩ := Buf.append_some h'
  exact Buf.seg_append h d

theorem step_np (F : Fold) {l : Label} {p : PState} {a d S : Bytes} (h : NPAt l p a) (hpre : a ++ d <+: S)
    (hS : LFGuarded S) : NPStep a d (step F l p d) := by
  obtain ⟨okS, okV, hst, hpa, hva, hot⟩ := h
  have guard : ∀ line rest, d = line ++ 10 :: rest →
      ∃ c, (a ++ line).getLast? = some c ∧ c ≠ 32 ∧ c ≠ 58 := by
    intro line rest e
    obtain ⟨t, ht⟩ := hpre
    exact hS (a ++ line) (rest ++ t) (by rw [← ht, e]; simp)
  cases l <;> simp only [step]
  · -- method
    have hv := hot (by simp)
    have hs := hst rfl
    unfold stepMethod
    split
    · split
      · exact ⟨by simp, fun e => by cases e⟩
      · rename_i sl hsl
        refine ⟨by simp, fun _ => ?_⟩
        refine ⟨Buf.OK_append okS hsl, okV, fun _ => hs, ?_, ?_, fun _ => hv⟩
        · intro e; simp only [hs] at e; cases e
        · intro e; simp only [hs] at e; cases e
    · rename_i m rest hc
      obtain ⟨rfl, _⟩ := cut_some hc
      split
      · exact ⟨by simp, fun e => by cases e⟩
      · rename_i mv sl hsl
        have hseg : sl.OK ∧ sl.seg = [] := by
          unfold takeMethod at hsl
          split at hsl
          · rename_i h0
            simp at hsl; rw [← hsl.2]
            refine ⟨okS, ?_⟩
            have : p.startLine.seg.length = 0 := by rw [← h0]; simp [Buf.seg, Buf.segLen]
            exact List.length_eq_zero_iff.1 this
          · split at hsl
            · simp at hsl
            · rename_i b' hb'
              have := Buf.finish_facts b'
              simp at hsl; rw [hsl] at this; exact this
        unfold finishMethod
        split
        · exact ⟨by simp, fun e => by cases e⟩
        · dsimp only
          split
          · exact ⟨by simp, fun e => by cases e⟩
          · exact ⟨m ++ [SP], by simp, hseg.1, okV, (fun e => by cases e), fun _ => .inl hseg.2,
              (fun e => by cases e), fun _ => hv⟩
  · -- path
    have hv := hot (by simp)
    have hp := hpa rfl
    unfold stepPath
    split
    · split
      · exact ⟨by simp, fun e => by cases e⟩
      · rename_i sl hsl
        refine ⟨by simp, fun _ => ⟨Buf.OK_append okS hsl, okV, (fun e => by cases e), fun _ => ?_,
          (fun e => by cases e), fun _ => hv⟩⟩
        dsimp only
        rw [Buf.seg_append' okS hsl, getLast?_app, getLast?_app]
        by_cases hd : d = []
        · subst hd; simpa using hp
        · simp [hd]
    · rename_i line rest hc
      obtain ⟨hde, hlf⟩ := cut_some hc
      split
      · exact ⟨by simp, fun e => by cases e⟩
      · rename_i sl hsl
        have hseg := Buf.seg_append' okS hsl
        obtain ⟨c, hc1, hc2, hc3⟩ := guard line rest hde
        have hlast : sl.seg.getLast? ≠ some 32 := by
          rw [hseg, getLast?_app]
          rw [getLast?_app] at hc1
          split
          · rename_i hl
            rw [if_pos hl] at hc1
            rcases hp with hp | hp
            · simp [hp]
            · rw [hp, hc1]; simpa using hc2
          · rename_i hl
            rw [if_neg hl] at hc1
            rw [hc1]; simpa using hc2
        have hf := Buf.finish_facts sl
        simp only [Buf.finish] at hf ⊢
        simp only [finishPath]
        have hnp : (requestLine p.req sl.seg).2 ≠ some .panic := fun e => hlast (requestLine_panic e)
        have hout := requestLine_out p.req sl.seg
        cases hrl : requestLine p.req sl.seg with
        | mk r out =>
        rw [hrl] at hnp hout
        simp only at hnp hout
        cases out with
        | some o =>
          refine ⟨by simpa using hnp, ?_⟩
          intro e; subst e; simp at hout
        | none =>
          exact ⟨line ++ [10], by simp [hde], hf.1, okV, (fun e => by cases e), (fun e => by cases e),
            (fun e => by cases e), fun _ => hv⟩
  · -- headerKey
    have hv := hot (by simp)
    unfold stepHeaderKey
    split
    · exact ⟨by simp, fun _ => ⟨okS, okV, (fun e => by cases e), (fun e => by cases e),
            (fun e => by cases e), fun _ => hv⟩⟩
    · rename_i c cs
      split
      · exact ⟨by simp, fun e => by cases e⟩
      split
      · rename_i hc
        exact ⟨[c], rfl, okS, okV, (fun e => by cases e), (fun e => by cases e),
            (fun e => by cases e), fun _ => hv⟩
      split
      · split
        · exact ⟨by simp, fun e => by cases e⟩
        · exact ⟨by simp, fun _ => ⟨okS, okV, (fun e => by cases e), (fun e => by cases e),
            (fun e => by cases e), fun _ => hv⟩⟩
      · rename_i k rest hc
        obtain ⟨hde, h58⟩ := cut_some hc
        split
        · exact ⟨by simp, fun e => by cases e⟩
        · rename_i kb hkb
          simp only [Buf.finish]
          split
          · exact ⟨by simp, fun e => by cases e⟩
          · refine ⟨k ++ [58], by simp [hde], okS, okV, ?_, ?_, fun _ => .inl ⟨hv, by simp⟩, fun _ => hv⟩
            · exact fun e => absurd e (valueLabel_ne _).1
            · exact fun e => absurd e (valueLabel_ne _).2
  · -- contentLength
    have hv := hot (by simp)
    unfold stepContentLength
    cases hcl : clDigits p.contentLength d with
    | mk n rest =>
    obtain ⟨v, rfl⟩ : ∃ v, d = v ++ rest := by
      have := clDigits_split p.contentLength d
      rw [hcl] at this; obtain ⟨v, hv, _⟩ := this; exact ⟨v, hv⟩
    dsimp only
    split
    · exact ⟨by simp, fun _ => ⟨okS, okV, (fun e => by cases e), (fun e => by cases e),
            (fun e => by cases e), fun _ => hv⟩⟩
    · rename_i c cs
      split
      · exact ⟨v ++ [c], by simp, okS, okV, (fun e => by cases e), (fun e => by cases e),
            (fun e => by cases e), fun _ => hv⟩
      split
      · exact ⟨v ++ [c], by simp, okS, okV, (fun e => by cases e), (fun e => by cases e),
            (fun e => by cases e), fun _ => hv⟩
      · exact ⟨by simp, fun e => by cases e⟩
  · -- contentLengthCR
    have hv := hot (by simp)
    unfold stepContentLengthCR
    split
    · exact ⟨by simp, fun _ => ⟨okS, okV, (fun e => by cases e), (fun e => by cases e),
            (fun e => by cases e), fun _ => hv⟩⟩
    · rename_i c cs
      split
      · exact ⟨by simp, fun e => by cases e⟩
      · exact ⟨[c], rfl, okS, okV, (fun e => by cases e), (fun e => by cases e),
            (fun e => by cases e), fun _ => hv⟩
  · -- headerValue
    have hv := hva rfl
    unfold stepHeaderValue
    split
    · split
      · exact ⟨by simp, fun e => by cases e⟩
      · rename_i vb hvb
        dsimp only
        split
        · exact ⟨by simp, fun e => by cases e⟩
        · refine ⟨by simp, fun _ => ⟨okS, Buf.OK_append okV hvb, (fun e => by cases e), (fun e => by cases e),
            fun _ => ?_, fun e => absurd rfl e⟩⟩
          dsimp only
          rw [Buf.seg_append' okV hvb, getLast?_app, getLast?_app]
          by_cases hd : d = []
          · subst hd; simpa using hv
          · right; simp [hd]
    · rename_i line rest hc
      obtain ⟨hde, hlf⟩ := cut_some hc
      split
      · exact ⟨by simp, fun e => by cases e⟩
      · rename_i vb hvb
        have hseg := Buf.seg_append' okV hvb
        obtain ⟨c, hc1, hc2, hc3⟩ := guard line rest hde
        dsimp only
        split
        · exact ⟨by simp, fun e => by cases e⟩
        · have hf := Buf.finish_facts vb
          simp only [Buf.finish] at hf ⊢
          split
          · exfalso
            rename_i hnone
            have ht : trimLeftSp vb.seg = [] := by simpa using hnone
            rw [getLast?_app] at hc1
            rcases trimLeftSp_nil ht with h0 | h0
            · rw [hseg] at h0
              simp at h0
              obtain ⟨h1, h2⟩ := h0
              rw [if_pos h2] at hc1
              rcases hv with hv | hv
              · rw [hv.2] at hc1; simp at hc1; exact hc3 hc1.symm
              · exact hv.1 h1
            · rw [hseg, getLast?_app] at h0
              split at h0
              · rename_i hl
                rw [if_pos hl] at hc1
                rcases hv with hv | hv
                · rw [hv.1] at h0; simp at h0
                · rw [hv.2, hc1] at h0; simp at h0; exact hc2 h0
              · rename_i hl
                rw [if_neg hl] at hc1
                rw [hc1] at h0; simp at h0; exact hc2 h0
          · rename_i last hlast
            obtain ⟨s1, s2, s3, s4, s5⟩ := storeHeader_rest F
              { p with valBuf := { vb with start := vb.mem.length } } p.headerKey
              (if last = CR then (trimLeftSp vb.seg).dropLast else trimLeftSp vb.seg)
            refine ⟨line ++ [10], by simp [hde], ?_, ?_, (fun e => by cases e), (fun e => by cases e),
              (fun e => by cases e), fun _ => ?_⟩
            · rw [s5]; exact okS
            · rw [s2]; exact hf.1
            · rw [s2]; exact hf.2
  · -- CRLFCR
    have hv := hot (by simp)
    unfold stepCRLFCR
    split
    · exact ⟨by simp, fun _ => ⟨okS, okV, (fun e => by cases e), (fun e => by cases e),
            (fun e => by cases e), fun _ => hv⟩⟩
    · split
      · exact ⟨by simp, fun e => by cases e⟩
      · exact ⟨by simp, fun e => by cases e⟩

theorem feed_lim (F : Fold) (p : PState) (hp : Ready p) (hh : p.req.Headers.pairs = []) (segs : List Bytes) :
    LimOut p (feed F p segs).1 := by
  refine feed_inv F segs.flatten (fun l q _ => LimAt p l q) (fun q _ => LimOut p q) ?_ ?_ ?_ segs p [] rfl ?_
  · intro l q a d p' r _ hI hs
    have := step_lim F p (d := d) hI
    rw [hs] at this; exact this
  · intro l q a d l' p' d' _ hI hs
    have h1 := step_lim F p (d := d) hI
    rw [hs] at h1
    obtain ⟨c, hc⟩ := step_goto_suffix F hs
    exact ⟨c, hc, h1⟩
  · intro q a hI; exact hI.out
  · rw [hp.state]
    refine ⟨⟨rfl, rfl, rfl, rfl, ?_, ?_, ?_, ?_, ?_⟩, ?_, fun _ => hp.state⟩
    · simp [hp.startLine.1]
    · simp [hp.keyBuf.1]
    · simp [hp.valBuf.1]
    · simp [hh]
    · simp [hh]
    · simp [hp.number]

theorem feed_np (F : Fold) (p : PState) (hp : Ready p) (segs : List Bytes) (h : LFGuarded segs.flatten) :
    (feed F p segs).2.1 ≠ .panic := by
  refine feed_inv F segs.flatten (fun l q a => NPAt l q a) (fun _ r => r ≠ .panic) ?_ ?_ ?_ segs p [] rfl ?_
  · intro l q a d p' r hpre hI hs
    have := step_np F (d := d) hI hpre h
    rw [hs] at this; exact this
  · intro l q a d l' p' d' hpre hI hs
    have h1 := step_np F (d := d) hI hpre h
    rw [hs] at h1; exact h1
  · intro q a _; simp
  · rw [hp.state]
    refine ⟨?_, ?_, fun _ => hp.state, (fun e => by cases e), (fun e => by cases e), fun _ => ?_⟩
    · simp [Buf.OK, hp.startLine.1, hp.startLine.2]
    · simp [Buf.OK, hp.valBuf.1, hp.valBuf.2]
    · simp [Buf.seg, hp.valBuf.1]

end Indigo.Parser
