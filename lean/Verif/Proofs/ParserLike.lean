/-
The outcome of parsing depends on the stream, the buffers and the limits only, not on the request object.
-/
import Verif.Proofs.ParserHead3

namespace Indigo.Parser

/-- The same as far as the outcome of parsing is concerned. -/
structure Like (p q : PState) : Prop where
  startLine : p.startLine = q.startLine
  keyBuf : p.keyBuf = q.keyBuf
  valBuf : p.valBuf = q.valBuf
  number : p.headersNumber = q.headersNumber
  length : p.contentLength = q.contentLength
  maxNumber : p.cfg.maxNumber = q.cfg.maxNumber
  maxValue : p.cfg.maxValueLength = q.cfg.maxValueLength

/-- Two steps with the same outcome. -/
inductive LikeStep : Step → Step → Prop
  | ret {p q} (r) : LikeStep (.ret p r) (.ret q r)
  | goto {p q} (l d) : Like p q → LikeStep (.goto l p d) (.goto l q d)

theorem requestLine_like (r r' : Request) (line : Bytes) : (requestLine r line).2 = (requestLine r' line).2 := by
  unfold requestLine
  cases h1 : cutLast SP line with
  | none => rfl
  | some v =>
    obtain ⟨a, b⟩ := v
    dsimp only
    cases h2 : b.getLast? with
    | none => rfl
    | some last =>
      dsimp only
      repeat' split
      all_goals first
        | rfl
        | (simp_all; done)

theorem finishPath_like {p q : PState} (h : Like p q) (line rest : Bytes) : LikeStep (finishPath p line rest) (finishPath q line rest) := by
  have := requestLine_like p.req q.req line
  unfold finishPath
  rcases h1 : requestLine p.req line with ⟨a, o⟩
  rcases h2 : requestLine q.req line with ⟨b, o'⟩
  rw [h1, h2] at this
  dsimp only at this
  subst this
  cases o with
  | some out => exact .ret _
  | none => exact .goto _ _ ⟨h.1, h.2, h.3, h.4, h.5, h.6, h.7⟩

theorem storeHeader_like (F : Fold) {p q : PState} (h : Like p q) (k v k' v' : Bytes) : Like (storeHeader F p k v) (storeHeader F q k' v') :=
  ⟨h.1, h.2, h.3, h.4, h.5, h.6, h.7⟩

theorem step_like (F : Fold) (l : Label) {p q : PState} (h : Like p q) (d : Bytes) : LikeStep (step F l p d) (step F l q d) := by
  obtain ⟨e1, e2, e3, e4, e5, e6, e7⟩ := h
  have h : Like p q := ⟨e1, e2, e3, e4, e5, e6, e7⟩
  cases l <;> simp only [step]
  · unfold stepMethod
    rw [e1]
    split
    · split <;> exact .ret _
    · split
      · exact .ret _
      · unfold finishMethod
        dsimp only
        split
        · exact .ret _
        · split
          · exact .ret _
          · exact .goto _ _ ⟨rfl, e2, e3, e4, e5, e6, e7⟩
  · unfold stepPath
    rw [e1]
    split
    · split <;> exact .ret _
    · split
      · exact .ret _
      · dsimp only
        rename_i sl _
        exact finishPath_like (p := { p with startLine := sl.finish.2 }) (q := { q with startLine := sl.finish.2 })
          ⟨rfl, e2, e3, e4, e5, e6, e7⟩ _ _
  · unfold stepHeaderKey
    rw [e2]
    split
    · exact .ret _
    · split
      · exact .ret _
      · split
        · exact .goto _ _ h
        · split
          · split <;> exact .ret _
          · split
            · exact .ret _
            · dsimp only
              rw [e4, e6]
              split
              · exact .ret _
              · exact .goto _ _ ⟨e1, rfl, e3, rfl, e5, e6, e7⟩
  · unfold stepContentLength
    dsimp only
    rw [e5]
    split
    · exact .ret _
    · split
      · exact .goto _ _ ⟨e1, e2, e3, e4, rfl, e6, e7⟩
      · split
        · exact .goto _ _ ⟨e1, e2, e3, e4, rfl, e6, e7⟩
        · exact .ret _
  · unfold stepContentLengthCR
    split
    · exact .ret _
    · split
      · exact .ret _
      · exact .goto _ _ h
  · unfold stepHeaderValue
    rw [e3]
    split
    · split
      · exact .ret _
      · dsimp only
        rw [e7]
        split <;> exact .ret _
    · split
      · exact .ret _
      · dsimp only
        rw [e7]
        split
        · exact .ret _
        · split
          · exact .ret _
          · exact .goto _ _ (storeHeader_like F (by exact ⟨e1, e2, rfl, e4, e5, e6, e7⟩) _ _ _ _)
  · unfold stepCRLFCR
    split
    · exact .ret _
    · split <;> exact .ret _

theorem exec_like (F : Fold) : ∀ (l : Label) (p : PState) (d : Bytes), ∀ q, Like p q → (exec F l p d).2 = (exec F l q d).2 := by
  refine exec_induct F (motive := fun l p d => ∀ q, Like p q → (exec F l p d).2 = (exec F l q d).2) ?_
  intro l p d ih q h
  have := step_like F l h d
  rw [exec_eq, exec_eq F l q d]
  cases hs : step F l p d with
  | ret p' r =>
    rw [hs] at this
    cases hq : step F l q d with
    | ret q' r' => rw [hq] at this; cases this; rfl
    | goto => rw [hq] at this; cases this
  | goto l' p' d' =>
    rw [hs] at this
    cases hq : step F l q d with
    | ret q' r' => rw [hq] at this; cases this
    | goto =>
      rw [hq] at this
      cases this
      rename_i h'
      exact ih _ _ _ hs _ h'

theorem buf_eq {b c : Buf} (h : b.mem = [] ∧ b.start = 0) (h' : c.mem = [] ∧ c.start = 0) (m : b.max = c.max) : b = c := by
  cases b; cases c; simp_all

/-- Parsers which are ready and have the same limits. -/
theorem ready_like {p q : PState} (hp : Ready p) (hq : Ready q) (h : limits p = limits q) : Like p q := by
  simp only [limits, Spec.Limits.mk.injEq] at h
  obtain ⟨h1, h2, h3, h4, h5⟩ := h
  exact ⟨buf_eq hp.startLine hq.startLine h1, buf_eq hp.keyBuf hq.keyBuf h2, buf_eq hp.valBuf hq.valBuf h3,
    hp.number.trans hq.number.symm, hp.length.trans hq.length.symm, h4, h5⟩

end Indigo.Parser
