/-
Complete heads are accepted or rejected.
-/
import Verif.Spec.Reject
import Verif.Proofs.ParserHead4
import Verif.Proofs.ParserInv

namespace Indigo.Parser
open Indigo.Spec

/-- The errors of the parser. -/
def errors : List Status.HTTPError :=
  [Status.ErrBadRequest, Status.ErrTooLongRequestLine, Status.ErrMethodNotImplemented, Status.ErrURITooLong, Status.ErrURIDecoding,
   Status.ErrUnsupportedProtocol, Status.ErrHeaderFieldsTooLarge, Status.ErrTooManyHeaders]

/-- Accepted or rejected. -/
def Decided : PRes → Prop
  | .pending => False
  | .completed _ => True
  | .error e => e ∈ errors
  | .panic => False

theorem trimLeftSp_last {v : Bytes} {last : Byte} (h : 32 ≠ last) : ∀ pre : Bytes, ∃ c, (trimLeftSp (pre ++ (v ++ [last]))).getLast? = some c := by
  have key : ∀ x : Bytes, ∃ c, (trimLeftSp (x ++ [last])).getLast? = some c := by
    intro x
    induction x with
    | nil => simp [trimLeftSp, Ne.symm h]
    | cons a x ih =>
      simp only [List.cons_append, trimLeftSp]
      split
      · exact ih
      · simp [List.getLast?_cons]
  intro pre
  rw [← List.append_assoc]
  exact key _

/-- Outcome of a step. -/
def DStep (F : Fold) : Step → Prop
  | .ret _ r => Decided r
  | .goto l p d => Decided (exec F l p d).2

theorem decided_step {F : Fold} {l : Label} {p : PState} {d : Bytes} (h : DStep F (step F l p d)) : Decided (exec F l p d).2 := by
  rw [exec_eq]
  cases hs : step F l p d <;> rw [hs] at h <;> exact h

theorem storeHeader_valBuf (F : Fold) (p : PState) (k v : Bytes) : (storeHeader F p k v).valBuf = p.valBuf := rfl

theorem section_decided (F : Fold) {s : Bytes} (h : Section s) : ∀ p : PState, p.valBuf.start ≤ p.valBuf.mem.length →
    Decided (exec F .headerKey p s).2 := by
  induction h with
  | lf rest => intro p _; apply decided_step; simp [step, stepHeaderKey, LF, DStep, Decided]
  | cr c rest =>
    intro p _
    apply decided_step
    simp only [step, stepHeaderKey, LF, CR]
    rw [if_neg (by decide), if_pos trivial]
    apply decided_step
    simp only [step, stepCRLFCR]
    split
    · trivial
    · simp [DStep, Decided, errors]
  | field n v last rest h1 h2 h3 h4 h5 h6 _ ih =>
    intro p hp
    have hcut : cut COLON (n ++ 58 :: (v ++ last :: 10 :: rest)) = some (n, v ++ last :: 10 :: rest) := cut_append h3
    have hcutL : v ++ last :: 10 :: rest = (v ++ [last]) ++ 10 :: rest := by simp
    have h10 : 10 ∉ v ++ [last] := by simp [h4, h5]
    have hv : ∀ p : PState, p.valBuf.start ≤ p.valBuf.mem.length → Decided (exec F .headerValue p (v ++ last :: 10 :: rest)).2 := by
      intro p hp
      apply decided_step
      simp only [step, stepHeaderValue]
      rw [hcutL, show LF = 10 from rfl, cut_append h10]
      simp only
      cases hb : p.valBuf.append (v ++ [last]) with
      | none => simp [DStep, Decided, errors]
      | some vb =>
        simp only
        split
        · simp [DStep, Decided, errors]
        · simp only [Buf.finish]
          have hvb : vb = { p.valBuf with mem := p.valBuf.mem ++ (v ++ [last]) } := by
            unfold Buf.append at hb
            split at hb
            · cases hb
            · cases hb; rfl
          obtain ⟨c, hc⟩ : ∃ c, (trimLeftSp vb.seg).getLast? = some c := by
            rw [hvb]
            simp only [Buf.seg]
            rw [List.drop_append_of_le_length hp]
            exact trimLeftSp_last h6 _
          rw [hc]
          simp only
          exact ih _ (Nat.le_refl _)
    have hcl : ∀ p : PState, p.valBuf.start ≤ p.valBuf.mem.length → Decided (exec F .contentLength p (v ++ last :: 10 :: rest)).2 := by
      intro p hp
      apply decided_step
      simp only [step, stepContentLength]
      obtain ⟨a, ha, hd, hn⟩ := clDigits_split p.contentLength (v ++ last :: 10 :: rest)
      rcases hx : clDigits p.contentLength (v ++ last :: 10 :: rest) with ⟨k, r⟩
      rw [hx] at ha hn
      simp only at ha hn ⊢
      have ha10 : 10 ∉ a := by intro hm; have := hd 10 hm; revert this; decide
      cases r with
      | nil =>
        exfalso
        apply ha10
        rw [List.append_nil] at ha
        rw [← ha]; simp
      | cons c cs =>
        simp only
        split
        · rename_i hc
          subst hc
          apply decided_step
          simp only [step, stepContentLengthCR]
          cases cs with
          | nil =>
            exfalso
            have := congrArg (fun x => (10 : Byte) ∈ x) ha
            simp [ha10, CR] at this
          | cons c cs =>
            simp only
            split
            · simp [DStep, Decided, errors]
            · rename_i hc
              simp at hc
              subst hc
              have h' : (v ++ [last]) ++ 10 :: rest = (a ++ [CR]) ++ 10 :: cs := by rw [← hcutL, ha]; simp [LF]
              obtain ⟨_, rfl⟩ := cut_unique h' h10 (by simp [ha10, CR])
              exact ih _ hp
        · split
          · rename_i hc
            subst hc
            have h' : (v ++ [last]) ++ 10 :: rest = a ++ 10 :: cs := by rw [← hcutL, ha]
            obtain ⟨_, rfl⟩ := cut_unique h' h10 ha10
            exact ih _ hp
          · simp [DStep, Decided, errors]
    apply decided_step
    simp only [step]
    have hne : ∃ c cs, n ++ 58 :: (v ++ last :: 10 :: rest) = c :: cs ∧ c ≠ LF ∧ c ≠ CR := by
      cases n with
      | nil => exact ⟨_, _, rfl, by decide, by decide⟩
      | cons c cs =>
        simp at h1 h2
        exact ⟨_, _, rfl, Ne.symm h2.1, Ne.symm h1.1⟩
    obtain ⟨c, cs, e, c1, c2⟩ := hne
    unfold stepHeaderKey
    rw [hcut]
    rw [e]
    simp only [if_neg c1, if_neg c2]
    cases hb : p.keyBuf.append n with
    | none => simp [DStep, Decided, errors]
    | some kb =>
      simp only [Buf.finish]
      split
      · simp [DStep, Decided, errors]
      · unfold valueLabel
        split
        · exact hcl _ hp
        · exact hv _ hp

theorem requestLine_decided (r : Request) (line : Bytes) (h : line.getLast? ≠ some 32) :
    ∀ out, (requestLine r line).2 = some out → Decided out := by
  intro out
  unfold requestLine
  cases hc : cutLast SP line with
  | none => intro ho; cases ho; simp [Decided, errors]
  | some x =>
    obtain ⟨a, b⟩ := x
    simp only
    cases hb : b.getLast? with
    | none =>
      exfalso
      have hb : b = [] := by simpa using hb
      obtain ⟨e, _⟩ := cutLast_some hc
      rw [hb] at e
      exact h (by rw [e]; simp [SP])
    | some last =>
      simp only
      intro ho
      repeat' split at ho
      all_goals first
        | (simp only [Option.some.injEq] at ho; subst ho; simp [Decided, errors])
        | cases ho

theorem complete_decided (F : Fold) {p : PState} (hp : Ready p) {s : Bytes} (h : CompleteHead (limits p) s) :
    Decided (exec F .method p s).2 := by
  obtain ⟨m, line, rest, rfl, h1, h2, h3, h4, h5⟩ := h
  apply decided_step
  simp only [step, stepMethod]
  rw [show SP = 32 from rfl, cut_append h1]
  simp only [takeMethod, Buf.segLen, hp.startLine.1, hp.startLine.2]
  simp only [List.length_nil, Nat.sub_self, if_true, finishMethod]
  split
  · simp [DStep, Decided, errors]
  · split
    · simp [DStep, Decided, errors]
    · apply decided_step
      simp only [step, stepPath]
      rw [show LF = 10 from rfl, cut_append h2]
      simp only
      cases hb : p.startLine.append line with
      | none => simp [DStep, Decided, errors]
      | some sl =>
        have hsl : sl.seg = line := by
          unfold Buf.append at hb
          split at hb
          · cases hb
          · cases hb; simp [Buf.seg, hp.startLine.1, hp.startLine.2]
        simp only [Buf.finish, hsl]
        unfold finishPath
        rcases hr : requestLine { p.req with Method := Method.parse m } line with ⟨r, out⟩
        cases out with
        | some out =>
          have := requestLine_decided { p.req with Method := Method.parse m } line h3 out (by rw [hr])
          simpa [DStep] using this
        | none =>
          simp only [DStep]
          exact section_decided F h5 _ (by simp [hp.valBuf.1, hp.valBuf.2])

theorem escapable_of_pct {e : Bytes} {s : Bytes} (h : UriDecode.pct e = some s) : Escapable e := by
  induction hn : e.length using Nat.strongRecOn generalizing e s with
  | ind n ih =>
    cases e with
    | nil => exact .nil
    | cons c cs =>
      simp only [UriDecode.pct_cons] at h
      split at h
      · rename_i hc
        subst hc
        split at h
        · rename_i h' l rest
          simp at h
          obtain ⟨t, ht, rfl⟩ := h
          exact .esc (ih rest.length (by simp at hn; omega) ht rfl)
        · simp at h
      · rename_i hc
        simp at h
        obtain ⟨t, ht, rfl⟩ := h
        exact .lit hc (ih cs.length (by simp at hn; omega) ht rfl)

theorem section_clean {s : Bytes} (h : Section s) : CleanFields s := by
  induction h with
  | lf rest => exact .endLF _
  | cr c rest => exact .endCR _
  | field n v last rest h1 h2 h3 h4 h5 h6 _ ih =>
    rw [show v ++ last :: 10 :: rest = (v ++ [last]) ++ 10 :: rest by simp]
    exact .field n (v ++ [last]) rest h1 h2 h3 (by simp [h4, h5]) ih

theorem complete_clean {L : Limits} {s : Bytes} (h : CompleteHead L s) : CleanStream s := by
  obtain ⟨m, line, rest, rfl, h1, h2, h3, h4, h5⟩ := h
  intro m' line' rest' e hm hl
  obtain ⟨rfl, e2⟩ := cut_unique e h1 hm
  obtain ⟨rfl, rfl⟩ := cut_unique e2 h2 hl
  exact section_clean h5

theorem complete_fits {L : Limits} {s : Bytes} (h : CompleteHead L s) : RequestLineFits L.line s := by
  obtain ⟨m, line, rest, rfl, h1, h2, h3, h4, h5⟩ := h
  refine ⟨?_, ?_, ?_⟩
  · intro hx; simp at hx
  · intro m' line' e hm hl
    obtain ⟨rfl, e2⟩ := cut_unique e h1 hm
    exact absurd (by rw [← e2]; simp) hl
  · intro m' line' rest' e hm hl
    obtain ⟨rfl, e2⟩ := cut_unique e h1 hm
    obtain ⟨rfl, _⟩ := cut_unique e2 h2 hl
    exact h4

/-- A complete head which is not acceptable is rejected, however it is cut into segments. -/
theorem feed_rejects (F : Fold) (p : PState) (hp : Ready p) (segs : List Bytes)
    (complete : CompleteHead (limits p) segs.flatten) (bad : ¬ Acceptable (limits p) segs.flatten) :
    ∃ p' e rest, feed F p segs = (p', .error e, rest) ∧ e ∈ errors ∧ (exec F .method p segs.flatten).2 = .error e := by
  have hd := complete_decided F hp complete
  have hfeed := feed_eq F segs p (hp.cond (complete_fits complete) (complete_clean complete))
  rw [hp.state] at hfeed
  rcases hx : exec F .method p segs.flatten with ⟨q, r⟩
  rw [hx] at hd hfeed
  cases r with
  | pending => exact absurd hd (by simp [Decided])
  | panic => exact absurd hd (by simp [Decided])
  | completed ex =>
    exfalso
    apply bad
    obtain ⟨h, path, e1, ⟨hm, hok⟩, hf, hdec, hl, hfit, e2⟩ := exec_head_inv F hp hx
    have hclean : h.CleanNames := by
      have hc := complete_clean complete (methodName h.method) (fullLine h)
        (h.fields.flatMap Field.render ++ (eol h.lastCrlf ++ ex)) (by rw [e1, render_eq])
        (methodName_facts _ hm).1 (by
          have := fullLine_lf hok
          simpa [fullLine, Head.line] using this)
      exact cleanNames_of_clean hf _ _ hc
    have hcr : ∀ f ∈ h.fields, 13 ∉ f.name := fun f hf => (hclean f hf).1
    have hokh : h.OK := ⟨hm, hok.target, hok.query, hok.version, fun f hfm => (fieldOK_iff (hcr f hfm)).1 (hf f hfm)⟩
    have hfit' := (fits_iff F hp hclean path).1 hfit
    refine ⟨h, ex, e1, hokh, hclean, hfit'.2.2.2.2, ⟨?_, hfit'.1, hfit'.2.1, hfit'.2.2.1, hfit'.2.2.2.1⟩, ?_⟩
    · have := (complete_fits complete).2.2 (methodName h.method) (fullLine h)
        (h.fields.flatMap Field.render ++ (eol h.lastCrlf ++ ex)) (by rw [e1, render_eq])
        (methodName_facts _ hm).1 (by
          have := fullLine_lf hok
          simpa [fullLine, Head.line] using this)
      rw [← fullLine_length]; exact this
    · rw [UriDecode.Decode_eq] at hdec
      exact escapable_of_pct hdec
  | error e =>
    rcases hfd : feed F p segs with ⟨p', r', rest⟩
    rw [hfd] at hfeed
    cases r' with
    | completed ex => simp [FeedRel] at hfeed
    | pending => simp [FeedRel] at hfeed
    | panic => simp [FeedRel] at hfeed
    | error e' =>
      simp [FeedRel] at hfeed
      exact ⟨p', e', rest, rfl, by rw [← hfeed.1]; exact hd, by rw [hfeed.1]⟩

end Indigo.Parser
