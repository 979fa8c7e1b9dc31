/-
Segmentation independence, continued: one step on a segment and on the segment with more data appended.
-/
import Verif.Proofs.ParserSplit

namespace Indigo.Parser
open Spec

/-- After a (possibly partial) value, the rest of the header section is clean. -/
def CleanAfterLine (d : Bytes) : Prop :=
  ∀ v rest : Bytes, d = v ++ LF :: rest → LF ∉ v → CleanFields rest

/-- The stream to come has no CR or LF inside field names. -/
def CleanAt (l : Label) (p : PState) (d : Bytes) : Prop :=
  match l with
  | .method => CleanStream d
  | .path => CleanAfterLine d
  | .headerKey => if p.keyBuf.seg = [] then CleanFields d else CleanFields (65 :: d)
  | .contentLength => CleanAfterLine d
  | .contentLengthCR => ∀ rest, d = LF :: rest → CleanFields rest
  | .headerValue => CleanAfterLine d
  | .headerValueCRLFCR => True

/-- Parser state at a label together with the stream to come. -/
structure Cond (l : Label) (p : PState) (d : Bytes) : Prop where
  okS : p.startLine.OK
  okK : p.keyBuf.OK
  fitS : p.startLine.mem.length ≤ p.startLine.max
  fitV : p.valBuf.mem.length ≤ p.valBuf.max
  vlen : p.valBuf.segLen ≤ p.cfg.maxValueLength
  segK : l ≠ .headerKey → p.keyBuf.seg = []
  state : l = .method → p.state = .method
  meth : l = .method → RequestLineFits (p.startLine.max - p.startLine.mem.length) d
  line : l = .path → LineFits p d
  clean : CleanAt l p d

/-! ### Inversion of cleanliness -/

theorem clean_cons_inv {x : Byte} {d : Bytes} (h : CleanFields (x :: d)) (h1 : x ≠ CR) (h2 : x ≠ LF) :
    (COLON ∉ x :: d → CR ∉ d ∧ LF ∉ d) ∧
    (∀ k rest, x :: d = k ++ COLON :: rest → COLON ∉ k → CR ∉ k ∧ LF ∉ k ∧ CleanAfterLine rest) := by
  generalize he : x :: d = s at h
  cases h with
  | none => cases he
  | endLF => cases he; exact absurd rfl h2
  | endCR => cases he; exact absurd rfl h1
  | name n a b c =>
    subst he
    refine ⟨fun _ => ⟨fun hh => a (by simp [hh]), fun hh => b (by simp [hh])⟩, ?_⟩
    intro k rest e _
    rw [e] at c; simp at c
  | value n v a b c dv =>
    refine ⟨fun hh => by simp at hh, ?_⟩
    intro k rest e hk
    have e1 := cut_append (b := v) c
    rw [show n ++ 58 :: v = k ++ COLON :: rest from e, cut_append hk] at e1
    simp at e1
    obtain ⟨rfl, rfl⟩ := e1
    refine ⟨a, b, ?_⟩
    intro v' rest' e' _
    rw [e'] at dv; simp at dv
  | field n v rest0 a b c dv hr =>
    refine ⟨fun hh => by simp at hh, ?_⟩
    intro k rest e hk
    have e1 := cut_append (b := v ++ 10 :: rest0) c
    rw [show n ++ 58 :: (v ++ 10 :: rest0) = k ++ COLON :: rest from e, cut_append hk] at e1
    simp at e1
    obtain ⟨rfl, rfl⟩ := e1
    refine ⟨a, b, ?_⟩
    intro v' rest' e' hv'
    have e2 := cut_append (b := rest0) dv
    rw [show v ++ 10 :: rest0 = v' ++ LF :: rest' from e', cut_append hv'] at e2
    simp at e2
    obtain ⟨rfl, rfl⟩ := e2
    exact hr

theorem CleanAfterLine.append {a d : Bytes} (h : CleanAfterLine (a ++ d)) (ha : LF ∉ a) : CleanAfterLine d := by
  intro v rest e hv
  exact h (a ++ v) rest (by simp [e]) (by simp [ha, hv])

/-- One step of `Parse` on a segment (first argument) compared with the same step when more data `D`
follows (second argument). -/
def AppRel (F : Fold) (D : Bytes) : Step → Step → Prop
  | .goto l' p' d', s => s = .goto l' p' (d' ++ D)
  | .ret p' .pending, s => StepAgree (step F p'.state p' D) s ∧ Cond p'.state p' D
  | .ret p' (.completed ex), s => s = .ret p' (.completed (ex ++ D))
  | .ret p' (.error e), s => ∃ p'', s = .ret p'' (.error e) ∧ p''.req = p'.req
  | .ret p' .panic, s => ∃ p'', s = .ret p'' .panic ∧ p''.req = p'.req

def AppendOK (F : Fold) (l : Label) (p : PState) (d D : Bytes) : Prop :=
  AppRel F D (step F l p d) (step F l p (d ++ D))

theorem takeMethod_spec {b : Buf} (ok : b.OK) {m : Bytes} (h : b.mem.length + m.length ≤ b.max) :
    ∃ sl, takeMethod b m = some (b.seg ++ m, sl) ∧ sl.seg = [] ∧ sl.max = b.max ∧ sl.OK ∧
      sl.mem.length ≤ b.mem.length + m.length := by
  unfold takeMethod
  split
  · rename_i h0
    rw [Buf.segLen_eq] at h0
    have := List.eq_nil_of_length_eq_zero h0
    exact ⟨b, by simp [this], this, rfl, ok, by omega⟩
  · rw [Buf.append_isSome h]
    simp only [Buf.finish, Buf.seg_append ok]
    exact ⟨_, rfl, by simp [Buf.seg], rfl, by simp [Buf.OK], by simp⟩

theorem finishMethod_agree {p : PState} {sl1 sl2 : Buf} {st1 st2 : Label} {mv rest : Bytes}
    (h1 : sl2.max = sl1.max) (h2 : sl2.seg = sl1.seg)
    (h3 : LineFits { p with startLine := sl1 } rest) (h4 : LineFits { p with startLine := sl2 } rest) :
    StepAgree (finishMethod { p with startLine := sl1, state := st1 } mv rest)
      (finishMethod { p with startLine := sl2, state := st2 } mv rest) := by
  unfold finishMethod
  split
  · exact ⟨rfl, rfl, fun ex h => by cases h⟩
  · dsimp only
    split
    · exact ⟨rfl, rfl, fun ex h => by cases h⟩
    · exact ⟨rfl, rfl, ⟨_, _, rfl, h1, h2⟩, by simp, fun _ => ⟨h3, h4⟩⟩

/-- What `RequestLineFits` says once the method is complete. -/
theorem reqLineFits_split {n : Nat} {m line : Bytes} (h : RequestLineFits n (m ++ SP :: line)) (hm : SP ∉ m) :
    m.length ≤ n ∧ (LF ∉ line → m.length + line.length ≤ n) ∧
      (∀ l1 r1, line = l1 ++ LF :: r1 → LF ∉ l1 → m.length + l1.length ≤ n) := by
  have a : LF ∉ line → m.length + line.length ≤ n := fun hl => h.2.1 m line rfl hm hl
  have b : ∀ l1 r1, line = l1 ++ LF :: r1 → LF ∉ l1 → m.length + l1.length ≤ n :=
    fun l1 r1 e hl => h.2.2 m l1 r1 (by rw [e]) hm hl
  refine ⟨?_, a, b⟩
  cases hc : cut LF line with
  | none => have := a (cut_none.1 hc); omega
  | some y =>
    obtain ⟨l1, r1⟩ := y
    obtain ⟨e, hn⟩ := cut_some hc
    have := b l1 r1 e hn
    omega

theorem reqLineFits_append {n : Nat} {d D : Bytes} (h : RequestLineFits n (d ++ D)) (hd : SP ∉ d) :
    d.length ≤ n ∧ RequestLineFits (n - d.length) D := by
  have key : d.length ≤ n := by
    cases hc : cut SP D with
    | none =>
      have := h.1 (by simp [hd, cut_none.1 hc]); simp at this; omega
    | some y =>
      obtain ⟨m, line⟩ := y
      obtain ⟨e, hn⟩ := cut_some hc
      have := (reqLineFits_split (m := d ++ m) (line := line) (by simpa [e] using h) (by simp [hd, hn])).1
      simp at this; omega
  refine ⟨key, ?_, ?_, ?_⟩
  · intro hs
    have := h.1 (by simp [hd, hs]); simp at this; omega
  · intro m line e hm hl
    have := h.2.1 (d ++ m) line (by simp [e]) (by simp [hd, hm]) hl
    simp at this; omega
  · intro m line rest e hm hl
    have := h.2.2 (d ++ m) line rest (by simp [e]) (by simp [hd, hm]) hl
    simp at this; omega

theorem append_method (F : Fold) {p : PState} {d D : Bytes} (h : Cond .method p (d ++ D)) :
    AppendOK F .method p d D := by
  have hm := h.meth rfl
  have hst := h.state rfl
  have okS := h.okS
  have hfS := h.fitS
  unfold AppendOK
  simp only [step]
  unfold stepMethod
  cases hc : cut SP d with
  | some x =>
    obtain ⟨m, rest⟩ := x
    rw [cut_append_some hc]
    dsimp only
    cases takeMethod p.startLine m with
    | none => exact ⟨_, rfl, rfl⟩
    | some y =>
      obtain ⟨mv, sl⟩ := y
      dsimp only
      unfold finishMethod
      by_cases h0 : mv.length = 0
      · simp only [if_pos h0]; exact ⟨_, rfl, rfl⟩
      · simp only [if_neg h0]
        by_cases h1 : Method.parse mv = .Unknown
        · simp only [if_pos h1]; exact ⟨_, rfl, rfl⟩
        · simp only [if_neg h1]; rfl
  | none =>
    have hn := cut_none.1 hc
    obtain ⟨hfit, hm'⟩ := reqLineFits_append hm hn
    rw [Buf.append_isSome (by omega)]
    dsimp only
    refine ⟨?_, ?_⟩
    · rw [hst]
      simp only [step]
      unfold stepMethod
      rw [cut_append_none hc]
      cases hc2 : cut SP D with
      | none =>
        dsimp only [Option.map]
        have h1 := hm.1 (by simp [hn, cut_none.1 hc2])
        simp at h1
        rw [Buf.append_isSome (by simp; omega), Buf.append_isSome (by simp; omega)]
        exact ⟨rfl, rfl, fun ex h => by cases h⟩
      | some x =>
        obtain ⟨m, line⟩ := x
        obtain ⟨e, hn2⟩ := cut_some hc2
        obtain ⟨a1, a2, a3⟩ := reqLineFits_split (m := d ++ m) (line := line) (by simpa [e] using hm)
          (by simp [hn, hn2])
        simp at a1 a2 a3
        dsimp only [Option.map]
        have ok1 : ({ p.startLine with mem := p.startLine.mem ++ d } : Buf).OK := by
          unfold Buf.OK at *; simp; omega
        obtain ⟨sl1, e1, s1, m1, o1, l1⟩ := takeMethod_spec ok1 (m := m) (by simp; omega)
        obtain ⟨sl2, e2, s2, m2, o2, l2⟩ := takeMethod_spec okS (m := d ++ m) (by simp; omega)
        rw [e1, e2, Buf.seg_append okS]
        simp only [List.append_assoc]
        simp at l1 l2 m1
        apply finishMethod_agree
        · rw [m1, m2]
        · rw [s1, s2]
        · refine ⟨o1, fun hl => ?_, fun l1 r1 e hl => ?_⟩
          · have := a2 hl; dsimp only; omega
          · have := a3 l1 r1 e hl; dsimp only; omega
        · refine ⟨o2, fun hl => ?_, fun l1 r1 e hl => ?_⟩
          · have := a2 hl; dsimp only; omega
          · have := a3 l1 r1 e hl; dsimp only; omega
    · rw [hst]
      refine ⟨?_, h.okK, ?_, h.fitV, h.vlen, fun _ => h.segK (by simp),
        fun _ => rfl, fun _ => ?_, nofun, ?_⟩
      · unfold Buf.OK at *; simp; omega
      · simp; omega
      · simpa [Nat.sub_sub] using hm'
      · intro m line rest e hm hl
        exact h.clean (d ++ m) line rest (by simp [e]) (by simp [hm]; exact hn) hl

theorem append_path (F : Fold) {p : PState} {d D : Bytes} (h : Cond .path p (d ++ D)) :
    AppendOK F .path p d D := by
  obtain ⟨okS, f1, f2⟩ := h.line rfl
  have hfS := h.fitS
  unfold AppendOK
  simp only [step]
  unfold stepPath
  cases hc : cut LF d with
  | some x =>
    obtain ⟨line, rest⟩ := x
    rw [cut_append_some hc]
    dsimp only
    cases p.startLine.append line with
    | none => exact ⟨_, rfl, rfl⟩
    | some sl =>
      simp only [Buf.finish]
      unfold finishPath
      have ho := requestLine_out p.req sl.seg
      cases hr : requestLine p.req sl.seg with
      | mk r o =>
        rw [hr] at ho
        cases o with
        | none => rfl
        | some out =>
          simp at ho
          rcases ho with rfl | ⟨e, rfl⟩ <;> exact ⟨_, rfl, rfl⟩
  | none =>
    have hn := cut_none.1 hc
    have hfit : p.startLine.mem.length + d.length ≤ p.startLine.max := by
      cases hc2 : cut LF D with
      | none => have := f1 (by simp [hn, cut_none.1 hc2]); simp at this; omega
      | some y =>
        obtain ⟨l1, r1⟩ := y
        obtain ⟨e, hn2⟩ := cut_some hc2
        have := f2 (d ++ l1) r1 (by simp [e]) (by simp [hn, hn2]); simp at this; omega
    have ok1 : ({ p.startLine with mem := p.startLine.mem ++ d } : Buf).OK := by
      unfold Buf.OK at *; simp; omega
    rw [Buf.append_isSome hfit]
    dsimp only
    have hline : LineFits { p with startLine := { p.startLine with mem := p.startLine.mem ++ d } } D := by
      refine ⟨ok1, fun hl => ?_, fun l1 r1 e hl => ?_⟩
      · have := f1 (by simp [hn]; exact hl); simp at this ⊢; omega
      · have := f2 (d ++ l1) r1 (by simp [e]) (by simp [hn]; exact hl); simp at this ⊢; omega
    refine ⟨?_, ?_⟩
    · simp only [step]
      unfold stepPath
      rw [cut_append_none hc]
      cases hc2 : cut LF D with
      | none =>
        dsimp only [Option.map]
        have h1 := f1 (by simp [hn, cut_none.1 hc2])
        simp at h1
        rw [Buf.append_isSome (by simp; omega), Buf.append_isSome (by simp; omega)]
        exact ⟨rfl, rfl, fun ex h => by cases h⟩
      | some x =>
        obtain ⟨l1, r1⟩ := x
        obtain ⟨e, hn2⟩ := cut_some hc2
        have h1 := f2 (d ++ l1) r1 (by simp [e]) (by simp [hn, hn2])
        simp at h1
        dsimp only [Option.map]
        rw [Buf.append_isSome (by simp; omega), Buf.append_isSome (by simp; omega)]
        simp only [Buf.finish, List.append_assoc]
        unfold finishPath
        dsimp only
        have ho := requestLine_out p.req ({ p.startLine with mem := p.startLine.mem ++ (d ++ l1) } : Buf).seg
        generalize requestLine p.req _ = rl at ho ⊢
        obtain ⟨r, o⟩ := rl
        cases o with
        | some o =>
          refine ⟨rfl, rfl, fun ex h => ?_⟩
          simp at ho h
          rcases ho with ho | ⟨e, ho⟩ <;> · rw [h] at ho; cases ho
        | none => exact ⟨rfl, rfl, ⟨_, _, rfl, rfl, rfl⟩, by simp, by simp⟩
    · refine ⟨ok1, h.okK, by simpa using hfit, h.fitV, h.vlen, fun _ => h.segK (by simp),
        nofun, nofun, fun _ => hline, ?_⟩
      exact CleanAfterLine.append h.clean hn

theorem sim_state (p : PState) (st : Label) : Sim { p with state := st } p := ⟨p.startLine, p.state, rfl, rfl, rfl⟩

/-- Inside a field name, the name begun stays clean. -/
theorem clean_drop {y : Byte} {e D : Bytes} (h : CleanFields (y :: (e ++ D))) (h1 : y ≠ CR)
    (h2 : y ≠ LF) (hn : COLON ∉ y :: e) : CleanFields (65 :: D) := by
  have hc := cut_none.2 hn
  generalize he : y :: (e ++ D) = s at h
  have he' : s = (y :: e) ++ D := by simp [← he]
  cases h with
  | none => cases he
  | endLF => cases he; exact absurd rfl h2
  | endCR => cases he; exact absurd rfl h1
  | name n a b c =>
    subst he'
    simp at a b c
    refine CleanFields.name _ ?_ ?_ ?_ <;> simp [*]
  | value n v a b c dv =>
    have e1 := cut_append (b := v) c
    rw [show n ++ 58 :: v = (y :: e) ++ D from he'] at e1
    rw [cut_append_none hc] at e1
    simp at e1
    obtain ⟨n', e2, rfl⟩ := e1
    obtain ⟨e5, hn'⟩ := cut_some e2
    subst e5
    simp at a b c
    refine CleanFields.value (65 :: n') v ?_ ?_ ?_ dv <;> simp [*]
  | field n v rest0 a b c dv hr =>
    have e1 := cut_append (b := v ++ 10 :: rest0) c
    rw [show n ++ 58 :: (v ++ 10 :: rest0) = (y :: e) ++ D from he'] at e1
    rw [cut_append_none hc] at e1
    simp at e1
    obtain ⟨n', e2, rfl⟩ := e1
    obtain ⟨e5, hn'⟩ := cut_some e2
    subst e5
    simp at a b c
    refine CleanFields.field (65 :: n') v rest0 ?_ ?_ ?_ dv hr <;> simp [*]

theorem clean_next {x : Byte} {xs : Bytes} (h : CleanFields (65 :: x :: xs)) : x ≠ CR ∧ x ≠ LF := by
  have hi := clean_cons_inv h (by decide) (by decide)
  cases hc : cut COLON (65 :: x :: xs) with
  | none =>
    have := hi.1 (cut_none.1 hc)
    simp at this
    exact ⟨fun e => this.1.1 e.symm, fun e => this.2.1 e.symm⟩
  | some y =>
    obtain ⟨k, rest⟩ := y
    obtain ⟨e, hn⟩ := cut_some hc
    obtain ⟨a, b, _⟩ := hi.2 k rest e hn
    rcases k with _ | ⟨k0, _ | ⟨k1, k⟩⟩
    · exact absurd (List.cons.inj e).1 (by decide)
    · simp at e; rw [e.2.1]; decide
    · simp at e
      obtain ⟨rfl, rfl, rfl⟩ := e
      simp at a b
      exact ⟨fun e => a.2.1 e.symm, fun e => b.2.1 e.symm⟩

theorem append_headerKey (F : Fold) {p : PState} {d D : Bytes} (h : Cond .headerKey p (d ++ D)) :
    AppendOK F .headerKey p d D := by
  have hcl : if p.keyBuf.seg = [] then CleanFields (d ++ D) else CleanFields (65 :: (d ++ D)) := h.clean
  unfold AppendOK
  cases d with
  | nil =>
    simp only [step, stepHeaderKey]
    refine ⟨step_sim F (l := .headerKey) D (sim_state p .headerKey) (by simp) (by simp), ?_⟩
    exact ⟨h.okS, h.okK, h.fitS, h.fitV, h.vlen, nofun, nofun, nofun, nofun, h.clean⟩
  | cons c cs =>
    simp only [step, stepHeaderKey, List.cons_append]
    by_cases hLF : c = LF
    · simp only [if_pos hLF]; rfl
    · simp only [if_neg hLF]
      by_cases hCR : c = CR
      · simp only [if_pos hCR]; rfl
      · simp only [if_neg hCR]
        cases hc : cut COLON (c :: cs) with
        | some x =>
          obtain ⟨k, rest⟩ := x
          have hc' := cut_append_some hc D
          rw [List.cons_append] at hc'
          rw [hc']
          dsimp only
          cases p.keyBuf.append k with
          | none => exact ⟨_, rfl, rfl⟩
          | some kb =>
            simp only [Buf.finish]
            by_cases h1 : p.headersNumber + 1 > p.cfg.maxNumber
            · simp only [if_pos h1]; exact ⟨_, rfl, rfl⟩
            · simp only [if_neg h1]; rfl
        | none =>
          have hn := cut_none.1 hc
          have hc' := cut_append_none hc D
          rw [List.cons_append] at hc'
          rw [hc']
          have happ := Buf.append_append p.keyBuf (c :: cs)
          cases ha : p.keyBuf.append (c :: cs) with
          | none =>
            dsimp only
            cases cut COLON D with
            | none =>
              dsimp only [Option.map]
              rw [← List.cons_append, happ, ha]; exact ⟨_, rfl, rfl⟩
            | some x =>
              dsimp only [Option.map]
              rw [happ, ha]; exact ⟨_, rfl, rfl⟩
          | some kb =>
            obtain ⟨rfl, hfit⟩ := Buf.append_some ha
            dsimp only
            have hclean : CleanFields (65 :: D) := by
              split at hcl
              · exact clean_drop hcl hCR hLF hn
              · exact clean_drop (y := 65) (e := c :: cs) hcl (by decide) (by decide)
                  (fun hh => by rcases List.mem_cons.1 hh with h1 | h1
                                · exact absurd h1 (by decide)
                                · exact hn h1)
            refine ⟨?_, ?_⟩
            · simp only [step, stepHeaderKey]
              cases D with
              | nil =>
                simp only [cut, Option.map, List.append_nil]
                rw [ha]
                exact ⟨rfl, rfl, nofun⟩
              | cons x xs =>
                obtain ⟨x1, x2⟩ := clean_next hclean
                dsimp only
                rw [if_neg x2, if_neg x1]
                cases cut COLON (x :: xs) with
                | none =>
                  dsimp only [Option.map]
                  rw [← List.cons_append, happ, ha]
                  dsimp only [Option.bind]
                  split
                  · exact ⟨rfl, rfl, nofun⟩
                  · exact ⟨rfl, rfl, nofun⟩
                | some y =>
                  obtain ⟨k, rest⟩ := y
                  dsimp only [Option.map]
                  rw [happ, ha]
                  dsimp only [Option.bind]
                  repeat' split
                  all_goals first
                    | (refine ⟨rfl, rfl, ?_⟩; intro ex h; cases h; done)
                    | exact ⟨rfl, rfl, ⟨_, _, rfl, rfl, rfl⟩, by simp [valueLabel_ne], by simp [valueLabel_ne]⟩
            · refine ⟨h.okS, Buf.OK_append h.okK ha, h.fitS, h.fitV, h.vlen, nofun, nofun, nofun, nofun, ?_⟩
              unfold CleanAt
              dsimp only
              rw [Buf.seg_append h.okK, if_neg (by simp)]
              exact hclean

theorem append_contentLength (F : Fold) {p : PState} {d D : Bytes} (h : Cond .contentLength p (d ++ D)) :
    AppendOK F .contentLength p d D := by
  have happ := clDigits_append p.contentLength d D
  obtain ⟨a, e1, e2, e3⟩ := clDigits_split p.contentLength d
  unfold AppendOK
  simp only [step, stepContentLength]
  generalize clDigits p.contentLength d = r at *
  obtain ⟨n, rest⟩ := r
  cases rest with
  | nil =>
    simp at happ
    rw [happ]
    refine ⟨?_, ?_⟩
    · simp only [step, stepContentLength]
      split
      · exact ⟨rfl, rfl, nofun⟩
      · repeat' split
        all_goals first
          | (refine ⟨rfl, rfl, ?_⟩; intro ex h; cases h; done)
          | exact ⟨rfl, rfl, ⟨_, _, rfl, rfl, rfl⟩, by simp, by simp⟩
    · refine ⟨h.okS, h.okK, h.fitS, h.fitV, h.vlen, fun _ => h.segK (by simp), nofun, nofun, nofun, ?_⟩
      refine CleanAfterLine.append h.clean ?_
      simp at e1
      subst e1
      intro hm
      rcases e2 _ hm with h | h
      · exact absurd h (by decide)
      · exact absurd h (by decide)
  | cons c cs =>
    simp at happ
    rw [happ]
    dsimp only
    by_cases h1 : c = CR
    · simp only [if_pos h1]; rfl
    · simp only [if_neg h1]
      by_cases h2 : c = LF
      · simp only [if_pos h2]; rfl
      · simp only [if_neg h2]; exact ⟨_, rfl, rfl⟩

theorem append_contentLengthCR (F : Fold) {p : PState} {d D : Bytes} (h : Cond .contentLengthCR p (d ++ D)) :
    AppendOK F .contentLengthCR p d D := by
  unfold AppendOK
  cases d with
  | nil =>
    simp only [step, stepContentLengthCR]
    refine ⟨step_sim F (l := .contentLengthCR) D (sim_state p .contentLengthCR) (by simp) (by simp), ?_⟩
    exact ⟨h.okS, h.okK, h.fitS, h.fitV, h.vlen, fun _ => h.segK (by simp), nofun, nofun, nofun, h.clean⟩
  | cons c cs =>
    simp only [step, stepContentLengthCR, List.cons_append]
    by_cases hc : c = LF
    · simp [hc, AppRel]
    · simp [hc, AppRel]

theorem append_CRLFCR (F : Fold) {p : PState} {d D : Bytes} (h : Cond .headerValueCRLFCR p (d ++ D)) :
    AppendOK F .headerValueCRLFCR p d D := by
  unfold AppendOK
  cases d with
  | nil =>
    simp only [step, stepCRLFCR]
    refine ⟨step_sim F (l := .headerValueCRLFCR) D (sim_state p .headerValueCRLFCR) (by simp) (by simp), ?_⟩
    exact ⟨h.okS, h.okK, h.fitS, h.fitV, h.vlen, fun _ => h.segK (by simp), nofun, nofun, nofun, trivial⟩
  | cons c cs =>
    simp only [step, stepCRLFCR, List.cons_append]
    by_cases hc : c = LF
    · simp [hc, AppRel]
    · simp [hc, AppRel]

theorem append_headerValue (F : Fold) {p : PState} {d D : Bytes} (h : Cond .headerValue p (d ++ D)) :
    AppendOK F .headerValue p d D := by
  unfold AppendOK
  simp only [step]
  unfold stepHeaderValue
  cases hc : cut LF d with
  | some x =>
    obtain ⟨line, rest⟩ := x
    rw [cut_append_some hc]
    dsimp only
    cases p.valBuf.append line with
    | none => exact ⟨_, rfl, rfl⟩
    | some vb =>
      dsimp only [Buf.finish]
      by_cases h1 : vb.segLen > p.cfg.maxValueLength
      · simp only [if_pos h1]; exact ⟨_, rfl, rfl⟩
      · simp only [if_neg h1]
        cases (trimLeftSp vb.seg).getLast? with
        | none => exact ⟨_, rfl, rfl⟩
        | some last => rfl
  | none =>
    have hn := cut_none.1 hc
    rw [cut_append_none hc]
    have happ := Buf.append_append p.valBuf d
    cases ha : p.valBuf.append d with
    | none =>
      dsimp only
      cases cut LF D with
      | none => dsimp only [Option.map]; rw [happ, ha]; exact ⟨_, rfl, rfl⟩
      | some x => dsimp only [Option.map]; rw [happ, ha]; exact ⟨_, rfl, rfl⟩
    | some vb =>
      dsimp only
      by_cases h1 : vb.segLen > p.cfg.maxValueLength
      · simp only [if_pos h1]
        have more : ∀ e vb', vb.append e = some vb' → vb'.segLen > p.cfg.maxValueLength := by
          intro e vb' he
          obtain ⟨rfl, _⟩ := Buf.append_some he
          unfold Buf.segLen at *
          simp; omega
        cases cut LF D with
        | none =>
          dsimp only [Option.map]
          rw [happ, ha]
          dsimp only [Option.bind]
          cases he : vb.append D with
          | none => exact ⟨_, rfl, rfl⟩
          | some vb' => simp only [if_pos (more _ _ he)]; exact ⟨_, rfl, rfl⟩
        | some x =>
          dsimp only [Option.map]
          rw [happ, ha]
          dsimp only [Option.bind]
          cases he : vb.append x.1 with
          | none => exact ⟨_, rfl, rfl⟩
          | some vb' => simp only [if_pos (more _ _ he)]; exact ⟨_, rfl, rfl⟩
      · simp only [if_neg h1]
        refine ⟨?_, ?_⟩
        · simp only [step, stepHeaderValue]
          cases cut LF D with
          | none =>
            dsimp only [Option.map]
            rw [happ, ha]
            dsimp only [Option.bind]
            repeat' split
            all_goals exact ⟨rfl, rfl, nofun⟩
          | some x =>
            dsimp only [Option.map]
            rw [happ, ha]
            dsimp only [Option.bind]
            repeat' split
            all_goals first
              | (refine ⟨rfl, rfl, ?_⟩; intro ex h; cases h; done)
              | exact ⟨rfl, rfl, ⟨_, _, rfl, rfl, rfl⟩, by simp, by simp⟩
        · obtain ⟨rfl, hfit⟩ := Buf.append_some ha
          exact ⟨h.okS, h.okK, h.fitS, by simpa using hfit, by dsimp only; omega, fun _ => h.segK (by simp), nofun,
            nofun, nofun, CleanAfterLine.append h.clean hn⟩

theorem step_append (F : Fold) {l : Label} {p : PState} {d D : Bytes} (h : Cond l p (d ++ D)) :
    AppendOK F l p d D := by
  cases l
  · exact append_method F h
  · exact append_path F h
  · exact append_headerKey F h
  · exact append_contentLength F h
  · exact append_contentLengthCR F h
  · exact append_headerValue F h
  · exact append_CRLFCR F h

/-- Jumps preserve the conditions. -/
theorem step_cond (F : Fold) {l : Label} {p : PState} {d : Bytes} (h : Cond l p d) {l' p' d'}
    (hs : step F l p d = .goto l' p' d') : Cond l' p' d' := by
  cases l <;> simp only [step] at hs
  · unfold stepMethod at hs
    split at hs
    · split at hs <;> cases hs
    · rename_i m rest hc
      obtain ⟨e, hn⟩ := cut_some hc
      subst e
      have hfS := h.fitS
      obtain ⟨a1, a2, a3⟩ := reqLineFits_split (h.meth rfl) hn
      obtain ⟨sl, e1, s1, m1, o1, l1⟩ := takeMethod_spec h.okS (m := m) (by omega)
      rw [e1] at hs
      unfold finishMethod at hs
      dsimp only at hs
      repeat' split at hs
      all_goals first | (cases hs; done) | skip
      cases hs
      refine ⟨o1, h.okK, by dsimp only; omega, h.fitV, h.vlen, fun _ => h.segK (by simp), nofun, nofun, fun _ => ⟨o1, ?_, ?_⟩, ?_⟩
      · intro hl; have := a2 hl; dsimp only; omega
      · intro l2 r2 e2 hl; have := a3 l2 r2 e2 hl; dsimp only; omega
      · intro v r e2 hv
        exact h.clean m v r (by rw [e2]) hn hv
  · unfold stepPath at hs
    split at hs
    · split at hs <;> cases hs
    · rename_i line rest hc
      obtain ⟨e, hn⟩ := cut_some hc
      subst e
      split at hs
      · cases hs
      · rename_i sl ha
        obtain ⟨rfl, hfit⟩ := Buf.append_some ha
        simp only [Buf.finish] at hs
        unfold finishPath at hs
        split at hs
        · cases hs
        · cases hs
          refine ⟨by simp [Buf.OK], h.okK, by simpa using hfit, h.fitV, h.vlen, fun _ => h.segK (by simp), nofun, nofun, nofun, ?_⟩
          unfold CleanAt
          simp only [if_pos (h.segK (by simp))]
          exact h.clean line _ rfl hn
  · unfold stepHeaderKey at hs
    split at hs
    · cases hs
    · rename_i c cs
      split at hs
      · cases hs
      · rename_i hLF
        split at hs
        · cases hs
          rename_i hCR
          have hk : p.keyBuf.seg = [] := by
            have hcl := h.clean
            unfold CleanAt at hcl
            dsimp only at hcl
            split at hcl
            · assumption
            · exact absurd hCR (clean_next hcl).1
          exact ⟨h.okS, h.okK, h.fitS, h.fitV, h.vlen, fun _ => hk, nofun, nofun, nofun, trivial⟩
        · rename_i hCR
          split at hs
          · split at hs <;> cases hs
          · rename_i k rest hc
            obtain ⟨e, hn⟩ := cut_some hc
            split at hs
            · cases hs
            · rename_i kb ha
              obtain ⟨rfl, hfit⟩ := Buf.append_some ha
              simp only [Buf.finish] at hs
              split at hs
              · cases hs
              · have hca : CleanAfterLine rest := by
                  have hcl := h.clean
                  unfold CleanAt at hcl
                  dsimp only at hcl
                  split at hcl
                  · exact ((clean_cons_inv hcl hCR hLF).2 k rest e hn).2.2
                  · refine ((clean_cons_inv hcl (by decide) (by decide)).2 (65 :: k) rest (by simp [e]) ?_).2.2
                    intro hh
                    rcases List.mem_cons.1 hh with h1 | h1
                    · exact absurd h1 (by decide)
                    · exact hn h1
                injection hs with hs1 hs2 hs3
                subst hs2 hs3
                have hlab' : l' = .contentLength ∨ l' = .headerValue := by
                  rw [← hs1]; exact valueLabel_cases _
                clear hs1
                refine ⟨h.okS, by simp [Buf.OK], h.fitS, h.fitV, h.vlen, fun _ => by simp [Buf.seg], ?_, ?_, ?_, ?_⟩
                all_goals rcases hlab' with rfl | rfl
                all_goals first | exact hca | (intro hh; cases hh)
  · unfold stepContentLength at hs
    obtain ⟨a, e1, e2, e3⟩ := clDigits_split p.contentLength d
    generalize clDigits p.contentLength d = r at *
    obtain ⟨n, rest⟩ := r
    dsimp only at hs e1
    subst e1
    have ha : LF ∉ a := by
      intro hm
      rcases e2 _ hm with h | h
      · exact absurd h (by decide)
      · exact absurd h (by decide)
    cases rest with
    | nil => cases hs
    | cons c cs =>
      dsimp only at hs
      repeat' split at hs
      all_goals first | (cases hs; done) | skip
      · rename_i hc
        cases hs
        refine ⟨h.okS, h.okK, h.fitS, h.fitV, h.vlen, fun _ => h.segK (by simp), nofun, nofun, nofun, ?_⟩
        intro rest er
        subst hc
        exact h.clean (a ++ [CR]) rest (by simp [er]) (by simp [ha]; decide)
      · rename_i hc1 hc
        cases hs
        refine ⟨h.okS, h.okK, h.fitS, h.fitV, h.vlen, fun _ => h.segK (by simp), nofun, nofun, nofun, ?_⟩
        unfold CleanAt
        simp only [if_pos (h.segK (by simp))]
        exact h.clean a _ (by rw [hc]) ha
  · unfold stepContentLengthCR at hs
    split at hs
    · cases hs
    · rename_i c cs
      split at hs
      · cases hs
      · rename_i hc
        cases hs
        refine ⟨h.okS, h.okK, h.fitS, h.fitV, h.vlen, fun _ => h.segK (by simp), nofun, nofun, nofun, ?_⟩
        unfold CleanAt
        simp only [if_pos (h.segK (by simp))]
        have hc' : c = LF := Classical.not_not.1 hc
        exact h.clean _ (by rw [hc'])
  · unfold stepHeaderValue at hs
    split at hs
    · split at hs
      · cases hs
      · dsimp only at hs; split at hs <;> cases hs
    · rename_i line rest hc
      obtain ⟨e, hn⟩ := cut_some hc
      subst e
      split at hs
      · cases hs
      · rename_i vb ha
        obtain ⟨rfl, hfit⟩ := Buf.append_some ha
        dsimp only at hs
        split at hs
        · cases hs
        · simp only [Buf.finish] at hs
          split at hs
          · cases hs
          · cases hs
            refine ⟨h.okS, h.okK, h.fitS, by simpa [storeHeader] using hfit, by simp [storeHeader, Buf.segLen], fun _ => h.segK (by simp), nofun, nofun, nofun, ?_⟩
            unfold CleanAt
            simp only [storeHeader, if_pos (h.segK (by simp))]
            exact h.clean line _ rfl hn
  · unfold stepCRLFCR at hs
    split at hs
    · cases hs
    · split at hs <;> cases hs

/-- One `Parse` call on a segment compared with one call on that segment and everything after it. -/
def SplitRel (F : Fold) (D : Bytes) (whole : PState × PRes) : PState × PRes → Prop
  | (p', .pending) => OutAgree (exec F p'.state p' D) whole ∧ Cond p'.state p' D
  | (p', .completed ex) => whole = (p', .completed (ex ++ D))
  | (p', .error e) => whole.2 = .error e ∧ whole.1.req = p'.req
  | (p', .panic) => whole.2 = .panic ∧ whole.1.req = p'.req

theorem exec_split (F : Fold) (D : Bytes) : ∀ (l : Label) (p : PState) (d : Bytes), Cond l p (d ++ D) →
    SplitRel F D (exec F l p (d ++ D)) (exec F l p d) := by
  apply exec_induct F (motive := fun l p d => Cond l p (d ++ D) →
    SplitRel F D (exec F l p (d ++ D)) (exec F l p d))
  intro l p d ih hc
  have ha := step_append F hc
  unfold AppendOK at ha
  cases hs : step F l p d with
  | goto l' p' d' =>
    rw [hs] at ha
    have ha : step F l p (d ++ D) = .goto l' p' (d' ++ D) := ha
    rw [exec_goto hs, exec_goto ha]
    exact ih l' p' d' hs (step_cond F hc ha)
  | ret p' r =>
    rw [hs] at ha
    rw [exec_ret hs]
    cases r with
    | pending => exact ⟨exec_of_stepAgree F ha.1, ha.2⟩
    | completed ex => exact exec_ret ha
    | error e =>
      obtain ⟨p'', h1, h2⟩ := ha
      rw [exec_ret h1]
      exact ⟨rfl, h2⟩
    | panic =>
      obtain ⟨p'', h1, h2⟩ := ha
      rw [exec_ret h1]
      exact ⟨rfl, h2⟩

/-- Feeding segments compared with parsing the whole stream at once. -/
def FeedRel (whole : PState × PRes) : PState × PRes × List Bytes → Prop
  | (p', .completed ex, rest) => whole = (p', .completed (ex ++ rest.flatten))
  | (p', r, _) => whole.2 = r ∧ whole.1.req = p'.req

theorem exec_nil_pending (F : Fold) {p : PState} (h : Cond p.state p []) :
    (exec F p.state p []).2 = .pending ∧ (exec F p.state p []).1.req = p.req := by
  have h1 := h.fitS
  have h2 := h.fitV
  have h3 := h.vlen
  rw [exec_eq]
  cases hst : p.state with
  | headerValue => simp [step, stepHeaderValue, cut, Buf.append_nil h2, Nat.not_lt.2 h3]
  | method => simp [step, stepMethod, cut, Buf.append_nil h1]
  | path => simp [step, stepPath, cut, Buf.append_nil h1]
  | _ => simp [step, stepHeaderKey, stepContentLength, stepContentLengthCR, stepCRLFCR, clDigits]

/-- Main lemma: however the stream is segmented, the outcome is that of one segment. -/
theorem feed_eq (F : Fold) : ∀ (segs : List Bytes) (p : PState), Cond p.state p segs.flatten →
    FeedRel (exec F p.state p segs.flatten) (feed F p segs) := by
  intro segs
  induction segs with
  | nil =>
    intro p h
    exact exec_nil_pending F h
  | cons d ds ih =>
    intro p h
    simp only [List.flatten_cons] at h ⊢
    have hsp := exec_split F ds.flatten p.state p d h
    simp only [feed, parse_eq_exec]
    generalize hw : exec F p.state p (d ++ ds.flatten) = whole at *
    cases he : exec F p.state p d with
    | mk p' r =>
      rw [he] at hsp
      cases r with
      | pending =>
        obtain ⟨h1, h2⟩ := hsp
        have := ih p' h2
        dsimp only
        generalize feed F p' ds = fd at *
        obtain ⟨q, r, rest⟩ := fd
        cases r with
        | completed ex =>
          have h3 : exec F p'.state p' ds.flatten = (q, .completed (ex ++ rest.flatten)) := this
          rw [h3] at h1
          have := h1.2.2 _ rfl
          show whole = _
          refine Prod.ext ?_ ?_
          · exact this.symm
          · exact h1.1.symm
        | pending => exact ⟨h1.1.symm.trans this.1, h1.2.1.symm.trans this.2⟩
        | error e => exact ⟨h1.1.symm.trans this.1, h1.2.1.symm.trans this.2⟩
        | panic => exact ⟨h1.1.symm.trans this.1, h1.2.1.symm.trans this.2⟩
      | completed ex => exact hsp
      | error e => exact hsp
      | panic => exact hsp

/-- A parser between two requests: nothing buffered, counters reset. -/
structure Ready (p : PState) : Prop where
  state : p.state = .method
  startLine : p.startLine.mem = [] ∧ p.startLine.start = 0
  keyBuf : p.keyBuf.mem = [] ∧ p.keyBuf.start = 0
  valBuf : p.valBuf.mem = [] ∧ p.valBuf.start = 0
  number : p.headersNumber = 0
  length : p.contentLength = 0

theorem ready_new (cfg : HeadersCfg) (a b c : Nat) : Ready (new cfg a b c) :=
  ⟨rfl, ⟨rfl, rfl⟩, ⟨rfl, rfl⟩, ⟨rfl, rfl⟩, rfl, rfl⟩

theorem ready_cleanup (p : PState) : Ready (cleanup p) := ⟨rfl, ⟨rfl, rfl⟩, ⟨rfl, rfl⟩, ⟨rfl, rfl⟩, rfl, rfl⟩

theorem Ready.cond {p : PState} (h : Ready p) {s : Bytes} (hf : RequestLineFits p.startLine.max s)
    (hc : CleanStream s) : Cond p.state p s := by
  obtain ⟨h1, ⟨h2, h2'⟩, ⟨h3, h3'⟩, ⟨h4, h4'⟩, h5, h6⟩ := h
  rw [h1]
  refine ⟨?_, ?_, ?_, ?_, ?_, ?_, fun _ => h1, fun _ => ?_, nofun, hc⟩
  · simp [Buf.OK, h2, h2']
  · simp [Buf.OK, h3, h3']
  · simp [h2]
  · simp [h4]
  · simp [Buf.segLen, h4]
  · simp [Buf.seg, h3]
  · simpa [h2] using hf

end Indigo.Parser
