/-
What the parser leaves alone, and how far it reads.
-/
import Verif.Proofs.ParserSplit2

namespace Indigo.Parser

/-- The part of the request which is none of the parser's business. -/
def restOf (r : Request) : Storage × Bytes × List Bytes × Environment × Bool × Option Storage :=
  (r.Params, r.Remote, r.Ctx, r.Env, r.wasHijacked, r.jar)

theorem requestLine_rest (r : Request) (line : Bytes) : restOf (requestLine r line).1 = restOf r := by
  unfold requestLine
  dsimp only
  repeat' split
  all_goals rfl

theorem storeHeader_restOf (F : Fold) (p : PState) (k v : Bytes) : restOf (storeHeader F p k v).req = restOf p.req := by
  unfold storeHeader
  dsimp only
  repeat' split
  all_goals rfl

/-- What a step says about the state it leads to. -/
def RestStep (p : PState) (d : Bytes) : Step → Prop
  | .ret p' r => restOf p'.req = restOf p.req ∧ p'.cfg = p.cfg ∧ p'.startLine.max = p.startLine.max ∧
      p'.keyBuf.max = p.keyBuf.max ∧ p'.valBuf.max = p.valBuf.max ∧
      ∀ extra, r = .completed extra → extra.length < d.length
  | .goto _ p' _ => restOf p'.req = restOf p.req ∧ p'.cfg = p.cfg ∧ p'.startLine.max = p.startLine.max ∧
      p'.keyBuf.max = p.keyBuf.max ∧ p'.valBuf.max = p.valBuf.max

theorem append_max {b b' : Buf} {d : Bytes} (h : b.append d = some b') : b'.max = b.max := by
  unfold Buf.append at h
  split at h
  · cases h
  · cases h; rfl

theorem takeMethod_max {b sl : Buf} {m v : Bytes} (h : takeMethod b m = some (v, sl)) : sl.max = b.max := by
  unfold takeMethod at h
  split at h
  · cases h; rfl
  · split at h
    · cases h
    · rename_i b' hb
      have := append_max hb
      simp only [Buf.finish, Option.some.injEq, Prod.mk.injEq] at h
      rw [← h.2]; exact this

theorem finishPath_rest (p : PState) (line rest : Bytes) (d : Bytes) : RestStep p d (finishPath p line rest) := by
  have h1 := requestLine_rest p.req line
  have h2 := requestLine_out p.req line
  unfold finishPath
  split
  · rename_i r out hr
    rw [hr] at h1 h2
    refine ⟨h1, rfl, rfl, rfl, rfl, fun extra he => ?_⟩
    subst he
    simp at h2
  · rename_i r hr
    rw [hr] at h1
    exact ⟨h1, rfl, rfl, rfl, rfl⟩

theorem step_rest (F : Fold) (l : Label) (p : PState) (d : Bytes) : RestStep p d (step F l p d) := by
  cases l <;> simp only [step]
  · unfold stepMethod
    split
    · split
      · exact ⟨rfl, rfl, rfl, rfl, rfl, nofun⟩
      · rename_i h; exact ⟨rfl, rfl, append_max h, rfl, rfl, nofun⟩
    · split
      · exact ⟨rfl, rfl, rfl, rfl, rfl, nofun⟩
      · rename_i h
        have := takeMethod_max h
        unfold finishMethod
        dsimp only
        repeat' split
        all_goals first
          | exact ⟨rfl, rfl, this, rfl, rfl, nofun⟩
          | exact ⟨rfl, rfl, this, rfl, rfl⟩
  · unfold stepPath
    split
    · split
      · exact ⟨rfl, rfl, rfl, rfl, rfl, nofun⟩
      · rename_i h; exact ⟨rfl, rfl, append_max h, rfl, rfl, nofun⟩
    · split
      · exact ⟨rfl, rfl, rfl, rfl, rfl, nofun⟩
      · rename_i rest _ _ sl h
        have := append_max h
        have h2 := finishPath_rest { p with startLine := sl.finish.2 } sl.finish.1 rest d
        revert h2
        show RestStep _ d _ → RestStep p d _
        dsimp only
        cases finishPath { p with startLine := sl.finish.2 } sl.finish.1 rest with
        | ret p' r => exact fun ⟨a, b, c, e, f, g⟩ => ⟨a, b, c.trans this, e, f, g⟩
        | goto l' p' d' => exact fun ⟨a, b, c, e, f⟩ => ⟨a, b, c.trans this, e, f⟩
  · unfold stepHeaderKey
    split
    · exact ⟨rfl, rfl, rfl, rfl, rfl, nofun⟩
    · split
      · refine ⟨rfl, rfl, rfl, rfl, rfl, fun extra h => ?_⟩
        cases h
        simp
      · split
        · exact ⟨rfl, rfl, rfl, rfl, rfl⟩
        · split
          · split
            · exact ⟨rfl, rfl, rfl, rfl, rfl, nofun⟩
            · rename_i h; exact ⟨rfl, rfl, rfl, append_max h, rfl, nofun⟩
          · split
            · exact ⟨rfl, rfl, rfl, rfl, rfl, nofun⟩
            · rename_i h
              have := append_max h
              dsimp only
              split
              · exact ⟨rfl, rfl, rfl, this, rfl, nofun⟩
              · exact ⟨rfl, rfl, rfl, this, rfl⟩
  · unfold stepContentLength
    dsimp only
    split
    · exact ⟨rfl, rfl, rfl, rfl, rfl, nofun⟩
    · repeat' split
      all_goals first
        | exact ⟨rfl, rfl, rfl, rfl, rfl, nofun⟩
        | exact ⟨rfl, rfl, rfl, rfl, rfl⟩
  · unfold stepContentLengthCR
    split
    · exact ⟨rfl, rfl, rfl, rfl, rfl, nofun⟩
    · split
      · exact ⟨rfl, rfl, rfl, rfl, rfl, nofun⟩
      · exact ⟨rfl, rfl, rfl, rfl, rfl⟩
  · unfold stepHeaderValue
    split
    · split
      · exact ⟨rfl, rfl, rfl, rfl, rfl, nofun⟩
      · rename_i h
        dsimp only
        split
        · exact ⟨rfl, rfl, rfl, rfl, append_max h, nofun⟩
        · exact ⟨rfl, rfl, rfl, rfl, append_max h, nofun⟩
    · split
      · exact ⟨rfl, rfl, rfl, rfl, rfl, nofun⟩
      · rename_i h
        have := append_max h
        dsimp only
        split
        · exact ⟨rfl, rfl, rfl, rfl, this, nofun⟩
        · split
          · exact ⟨rfl, rfl, rfl, rfl, this, nofun⟩
          · refine ⟨?_, ?_, ?_, ?_, ?_⟩
            · rw [storeHeader_restOf]
            · rfl
            · rfl
            · rfl
            · exact this
  · unfold stepCRLFCR
    split
    · exact ⟨rfl, rfl, rfl, rfl, rfl, nofun⟩
    · split
      · refine ⟨rfl, rfl, rfl, rfl, rfl, fun extra h => ?_⟩
        cases h
        simp
      · exact ⟨rfl, rfl, rfl, rfl, rfl, nofun⟩

/-- What holds after a call of `Parse`. -/
structure RestOK (p p' : PState) : Prop where
  rest : restOf p'.req = restOf p.req
  cfg : p'.cfg = p.cfg
  line : p'.startLine.max = p.startLine.max
  key : p'.keyBuf.max = p.keyBuf.max
  val : p'.valBuf.max = p.valBuf.max

theorem RestOK.refl (p : PState) : RestOK p p := ⟨rfl, rfl, rfl, rfl, rfl⟩

theorem RestOK.trans {p q r : PState} (h : RestOK p q) (h' : RestOK q r) : RestOK p r :=
  ⟨h'.rest.trans h.rest, h'.cfg.trans h.cfg, h'.line.trans h.line, h'.key.trans h.key, h'.val.trans h.val⟩

theorem exec_rest (F : Fold) : ∀ (l : Label) (p : PState) (d : Bytes),
    RestOK p (exec F l p d).1 ∧ ∀ extra, (exec F l p d).2 = .completed extra → extra.length < d.length := by
  refine exec_induct F (motive := fun l p d => RestOK p (exec F l p d).1 ∧
    ∀ extra, (exec F l p d).2 = .completed extra → extra.length < d.length) ?_
  intro l p d ih
  have h := step_rest F l p d
  rw [exec_eq]
  cases hs : step F l p d with
  | ret p' r =>
    rw [hs] at h
    obtain ⟨a, b, c, e, f, g⟩ := h
    exact ⟨⟨a, b, c, e, f⟩, g⟩
  | goto l' p' d' =>
    rw [hs] at h
    obtain ⟨a, b, c, e, f⟩ := h
    have h2 := ih l' p' d' hs
    have := step_goto_length F hs
    exact ⟨RestOK.trans ⟨a, b, c, e, f⟩ h2.1, fun extra he => Nat.lt_trans (h2.2 extra he) this⟩

theorem parse_rest (F : Fold) (p : PState) (d : Bytes) : RestOK p (parse F p d).1 := by
  rw [parse_eq_exec]; exact (exec_rest F _ p d).1

theorem parse_extra {F : Fold} {p p' : PState} {d extra : Bytes} (h : parse F p d = (p', .completed extra)) :
    extra.length < d.length := by
  rw [parse_eq_exec] at h
  have := (exec_rest F p.state p d).2 extra
  rw [h] at this
  exact this rfl

theorem feed_rest (F : Fold) (segs : List Bytes) : ∀ p, RestOK p (feed F p segs).1 := by
  induction segs with
  | nil => intro p; exact RestOK.refl p
  | cons d ds ih =>
    intro p
    have h := parse_rest F p d
    simp only [feed]
    split
    · rename_i p1 h1
      rw [h1] at h
      exact h.trans (ih p1)
    · rename_i p1 r _ h1
      rw [h1] at h
      exact h

end Indigo.Parser
