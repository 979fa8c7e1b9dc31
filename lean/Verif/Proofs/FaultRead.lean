/-
What the parser leaves in the request object when it reports an error: everything before the line with the fault.
-/
import Verif.Proofs.FaultSeen

namespace Indigo.Parser
open Indigo.Spec

/-- A step which reports an error in a header line leaves the request alone, but for the content length. -/
def sansLength (r : Request) : Request := { r with ContentLength := 0 }

/-- The split at the first byte which is neither a digit nor a blank. -/
theorem digits_unique {ds ds' : Bytes} {c c' : Byte} {r r' : Bytes} (h : ∀ d ∈ ds, d = 32 ∨ isDigit d = true) (h' : ∀ d ∈ ds', d = 32 ∨ isDigit d = true)
    (hc : ¬ (c = 32 ∨ isDigit c = true)) (hc' : ¬ (c' = 32 ∨ isDigit c' = true)) (e : ds ++ c :: r = ds' ++ c' :: r') : ds = ds' ∧ c = c' ∧ r = r' := by
  induction ds generalizing ds' with
  | nil =>
    cases ds' with
    | nil => simpa using e
    | cons x xs =>
      simp only [List.nil_append, List.cons_append, List.cons.injEq] at e
      rw [e.1] at hc
      exact absurd (h' x (List.mem_cons_self ..)) hc
  | cons x xs ih =>
    cases ds' with
    | nil =>
      simp only [List.nil_append, List.cons_append, List.cons.injEq] at e
      rw [← e.1] at hc'
      exact absurd (h x (List.mem_cons_self ..)) hc'
    | cons y ys =>
      simp only [List.cons_append, List.cons.injEq] at e
      obtain ⟨h1, h2, h3⟩ := ih (fun d hd => h d (List.mem_cons_of_mem _ hd)) (fun d hd => h' d (List.mem_cons_of_mem _ hd)) e.2
      exact ⟨by rw [e.1, h1], h2, h3⟩

theorem render_split (f : Field) (rest : Bytes) : f.render ++ rest = f.name ++ 58 :: (rawValue f ++ 10 :: rest) := by
  simp [Field.render, rawValue, eol_eq]

theorem rawValue_lf {f : Field} (ok : f.OK) : 10 ∉ rawValue f := by
  have := ok.value_lf
  simp only [rawValue, List.mem_append, List.mem_replicate, not_or]
  refine ⟨fun h => by simp at h, this, ?_⟩
  cases f.crlf <;> simp

theorem rawValue_digits {f : Field} (ok : f.OK) (hl : f.isLength = true) : ∃ ds, (∀ d ∈ ds, d = 32 ∨ isDigit d = true) ∧ ∀ rest, rawValue f ++ 10 :: rest = ds ++ (eol f.crlf ++ rest) := by
  refine ⟨List.replicate f.pad 32 ++ f.value, fun d hd => ?_, fun rest => by simp [rawValue, eol_eq]⟩
  rcases List.mem_append.1 hd with h | h
  · exact .inl (List.mem_replicate.1 h).2
  · exact ok.value_length hl d h

theorem sameName_length {f : Field} {name : Bytes} (e : f.name = name) (hcl : lower name = b!"content-length") : f.isLength = true := by
  simp [Field.isLength, Field.named, e, hcl]

theorem otherName_length {f : Field} {name : Bytes} (e : f.name = name) (hcl : lower name ≠ b!"content-length") : f.isLength = false := by
  simp only [Field.isLength, Field.named, e, beq_eq_false_iff_ne]; exact hcl

/-- What is known of a header section with a fault: the lines before it, and what the parser makes of it. -/
def SectionRead (F : Fold) (L : Limits) (a b n : Nat) (s : Bytes) (e : Status.HTTPError) : Prop :=
  ∃ (fs : List Field) (bad : Bytes), s = fs.flatMap Field.render ++ bad ∧
    (∀ f ∈ fs, f.OK ∧ (13 ∉ f.name ∧ 10 ∉ f.name) ∧ (f.isLength = false → f.rawLength ≤ L.value ∧ (f.crlf = false → f.value ≠ []))) ∧
    (fs ≠ [] → a + (fs.map (fun f => f.name.length)).sum ≤ L.names ∧ n + fs.length ≤ L.number) ∧
    ((fs.filter (fun f => !f.isLength)) ≠ [] → b + ((fs.filter (fun f => !f.isLength)).map Field.rawLength).sum ≤ L.values) ∧
    SectionFault L (a + (fs.map (fun f => f.name.length)).sum) (b + ((fs.filter (fun f => !f.isLength)).map Field.rawLength).sum) (n + fs.length) bad e ∧
    (∀ (f : Field) (rest : Bytes), bad = Field.render f ++ rest → ¬ f.Faultless L (a + (fs.map (fun f => f.name.length)).sum)
      (b + ((fs.filter (fun f => !f.isLength)).map Field.rawLength).sum) (n + fs.length)) ∧
    ∀ p : PState, Fresh p → limits p = L → p.keyBuf.mem.length = a → p.valBuf.mem.length = b → p.headersNumber = n →
      sansLength (exec F .headerKey p s).1.req = sansLength (fs.foldl (afterField F) p).req ∧
      (¬ LengthLine bad → (exec F .headerKey p s).1.req = (fs.foldl (afterField F) p).req)

theorem sectionRead_here {F : Fold} {L : Limits} {a b n : Nat} {s : Bytes} {e : Status.HTTPError} (h1 : SectionFault L a b n s e)
    (h2 : ∀ (f : Field) (rest : Bytes), s = Field.render f ++ rest → ¬ f.Faultless L a b n)
    (h3 : ∀ p : PState, Fresh p → limits p = L → p.keyBuf.mem.length = a → p.valBuf.mem.length = b → p.headersNumber = n →
      sansLength (exec F .headerKey p s).1.req = sansLength p.req ∧ (¬ LengthLine s → (exec F .headerKey p s).1.req = p.req)) : SectionRead F L a b n s e :=
  ⟨[], s, rfl, fun _ hf => (List.not_mem_nil hf).elim, fun h => absurd rfl h, fun h => absurd rfl h, h1, h2, h3⟩

theorem exec_key_too_many_req (F : Fold) {p : PState} {name rest : Bytes} (h58 : 58 ∉ name)
    (hh : name.head? ≠ some 13 ∧ name.head? ≠ some 10) (hl : p.keyBuf.mem.length + name.length ≤ p.keyBuf.max)
    (hn : p.cfg.maxNumber < p.headersNumber + 1) : (exec F .headerKey p (name ++ 58 :: rest)).1.req = p.req := by
  rw [exec_eq]
  simp only [step, stepHeaderKey]
  have hcut := cut_append (b := rest) h58
  have hne : ∃ c cs, name ++ 58 :: rest = c :: cs ∧ c ≠ LF ∧ c ≠ CR := by
    cases name with
    | nil => exact ⟨58, rest, rfl, by decide, by decide⟩
    | cons x xs =>
      simp at hh
      exact ⟨x, xs ++ 58 :: rest, rfl, hh.2, hh.1⟩
  obtain ⟨c, cs, e, e1, e2⟩ := hne
  rw [e] at hcut ⊢
  simp only [if_neg e1, if_neg e2, show COLON = 58 from rfl, hcut]
  have hb : p.keyBuf.append name = some { p.keyBuf with mem := p.keyBuf.mem ++ name } := by
    simp [Buf.append]; omega
  simp only [hb]
  rw [if_pos hn]

theorem section_read (F : Fold) {L : Limits} {a b n : Nat} {s : Bytes} {e : Status.HTTPError} (h : SectionFault L a b n s e) :
    SectionRead F L a b n s e := by
  have same : ∀ {f : Field} {name t rest : Bytes}, f.OK → 58 ∉ name → name ++ 58 :: t = f.render ++ rest →
      f.name = name ∧ rawValue f ++ 10 :: rest = t := by
    intro f name t rest ok h58 e
    rw [render_split] at e
    obtain ⟨e1, e2⟩ := cut_unique e h58 ok.name_colon
    exact ⟨e1.symm, e2.symm⟩
  have both : ∀ {r r' : Request} {P : Prop}, r = r' → sansLength r = sansLength r' ∧ (P → r = r') := fun h => ⟨by rw [h], fun _ => h⟩
  induction h with
  | noEnd c rest hc =>
    refine sectionRead_here (.noEnd c rest hc) ?_ ?_
    · intro f rest' e fl
      rw [render_split] at e
      have := fl.ok.name_head.1
      cases hn : f.name with
      | nil => rw [hn] at e; cases e
      | cons x xs => rw [hn] at e this; injection e with e1 _; subst e1; simp at this
    · intro p _ _ _ _ _
      refine both ?_
      have : step F .headerKey p (13 :: c :: rest) = .goto .headerValueCRLFCR p (c :: rest) := by
        simp [step, stepHeaderKey, LF, CR]
      rw [exec_goto this, exec_eq]
      simp [step, stepCRLFCR, LF, hc]
  | names name rest h13 h10 h58 hl =>
    refine sectionRead_here (.names name rest h13 h10 h58 hl) ?_ ?_
    · intro f rest' e fl
      have := (same fl.ok h58 e).1
      have := fl.names
      rw [‹f.name = name›] at this
      omega
    · rintro p hf rfl rfl rfl rfl
      refine both ?_
      rw [exec_eq]
      simp only [step, stepHeaderKey]
      have hcut := cut_append (b := rest) h58
      have hne : ∃ c cs, name ++ 58 :: rest = c :: cs ∧ c ≠ LF ∧ c ≠ CR := by
        have hh := name_ok h13 h10
        cases name with
        | nil => exact ⟨58, rest, rfl, by decide, by decide⟩
        | cons x xs =>
          simp at hh
          exact ⟨x, xs ++ 58 :: rest, rfl, hh.2, hh.1⟩
      obtain ⟨c, cs, e, e1, e2⟩ := hne
      rw [e] at hcut ⊢
      have hb : p.keyBuf.append name = none := by
        simp [Buf.append]; simpa [limits] using hl
      simp only [if_neg e1, if_neg e2, show COLON = 58 from rfl, hcut, hb]
  | namesOpen name hne h13 h10 h58 hl =>
    refine sectionRead_here (.namesOpen name hne h13 h10 h58 hl) ?_ ?_
    · intro f rest' e fl
      rw [render_split] at e
      exact h58 (by rw [e]; simp)
    · rintro p hf rfl rfl rfl rfl
      refine both ?_
      rw [exec_eq]
      simp only [step, stepHeaderKey]
      have hh := name_ok h13 h10
      have hb : p.keyBuf.append name = none := by
        simp [Buf.append]; simpa [limits] using hl
      have hcut := cut_none.2 h58
      cases name with
      | nil => exact absurd rfl hne
      | cons x xs =>
        simp at hh
        simp only [show LF = 10 from rfl, show CR = 13 from rfl, if_neg hh.2, if_neg hh.1, show COLON = 58 from rfl, hcut, hb]
  | number name rest h13 h10 h58 hl hn =>
    refine sectionRead_here (.number name rest h13 h10 h58 hl hn) ?_ ?_
    · intro f rest' e fl
      have := fl.number
      omega
    · rintro p hf rfl rfl rfl rfl
      refine both ?_
      rw [exec_key_too_many_req F h58 (name_ok h13 h10) hl hn]
  | length name ds c rest h13 h10 h58 hl hn hcl hds hc1 hc2 hc3 hc4 =>
    refine sectionRead_here (.length name ds c rest h13 h10 h58 hl hn hcl hds hc1 hc2 hc3 hc4) ?_ ?_
    · intro f rest' e fl
      obtain ⟨e1, e2⟩ := same fl.ok h58 e
      obtain ⟨ds', h1, h2⟩ := rawValue_digits fl.ok (sameName_length e1 hcl)
      rw [h2] at e2
      have hcc : ¬ (c = 32 ∨ isDigit c = true) := by simp [hc1, hc2]
      cases hcr : f.crlf with
      | true =>
        rw [hcr, show eol true ++ rest' = 13 :: 10 :: rest' from rfl] at e2
        exact hc3 (digits_unique h1 hds (by decide) hcc e2).2.1.symm
      | false =>
        rw [hcr, show eol false ++ rest' = 10 :: rest' from rfl] at e2
        exact hc4 (digits_unique h1 hds (by decide) hcc e2).2.1.symm
    · rintro p hf rfl rfl rfl rfl
      refine ⟨?_, fun h => absurd ⟨name, _, hcl, rfl⟩ h⟩
      rw [exec_goto (step_key F hf h58 (name_ok h13 h10) hl hn)]
      have hk : isContentLengthKey name = true := ((special_length name h13).2 hcl)
      simp only [valueLabel, hk, if_true]
      rw [exec_eq]
      have hstop : ∀ n, clDigits n (c :: rest) = (n, c :: rest) := by
        intro n
        have : c < 48 ∨ c > 57 := by
          simp [isDigit, UInt8.le_iff_toNat_le, UInt8.lt_iff_toNat_lt] at hc2 ⊢; omega
        simp only [clDigits]
        rw [if_neg (by simpa [SP] using hc1), if_pos this]
      simp only [step, stepContentLength, clDigits_value _ _ _ hds, hstop]
      rw [if_neg (by simpa [CR] using hc3), if_neg (by simpa [LF] using hc4)]
      rfl
  | lengthEnd name ds c rest h13 h10 h58 hl hn hcl hds hc =>
    refine sectionRead_here (.lengthEnd name ds c rest h13 h10 h58 hl hn hcl hds hc) ?_ ?_
    · intro f rest' e fl
      obtain ⟨e1, e2⟩ := same fl.ok h58 e
      obtain ⟨ds', h1, h2⟩ := rawValue_digits fl.ok (sameName_length e1 hcl)
      rw [h2] at e2
      cases hcr : f.crlf with
      | true =>
        rw [hcr, show eol true ++ rest' = 13 :: 10 :: rest' from rfl] at e2
        have := (digits_unique h1 hds (by decide) (by decide) e2).2.2
        injection this with this _
        exact hc this.symm
      | false =>
        rw [hcr, show eol false ++ rest' = 10 :: rest' from rfl] at e2
        exact absurd (digits_unique h1 hds (by decide) (by decide) e2).2.1 (by decide)
    · rintro p hf rfl rfl rfl rfl
      refine ⟨?_, fun h => absurd ⟨name, _, hcl, rfl⟩ h⟩
      rw [exec_goto (step_key F hf h58 (name_ok h13 h10) hl hn)]
      have hk : isContentLengthKey name = true := ((special_length name h13).2 hcl)
      simp only [valueLabel, hk, if_true]
      rw [exec_eq]
      have hstop : ∀ n, clDigits n (13 :: c :: rest) = (n, 13 :: c :: rest) := by
        intro n
        simp [clDigits, SP]
      simp only [step, stepContentLength, clDigits_value _ _ _ hds, hstop]
      rw [if_pos trivial]
      simp only
      rw [exec_eq]
      simp [step, stepContentLengthCR, LF, hc]
      rfl
  | value name v rest h13 h10 h58 hl hn hcl hv hbig =>
    refine sectionRead_here (.value name v rest h13 h10 h58 hl hn hcl hv hbig) ?_ ?_
    · intro f rest' e fl
      obtain ⟨e1, e2⟩ := same fl.ok h58 e
      have e3 := (cut_unique e2 (rawValue_lf fl.ok) hv).1
      have := fl.value (otherName_length e1 hcl)
      rw [← rawValue_length, e3] at this
      omega
    · rintro p hf rfl rfl rfl rfl
      refine both ?_
      rw [exec_goto (step_key F hf h58 (name_ok h13 h10) hl hn)]
      have hk : isContentLengthKey name = false := by
        cases hk : isContentLengthKey name with
        | false => rfl
        | true => exact absurd ((special_length name h13).1 hk) hcl
      simp only [valueLabel, hk, Bool.false_eq_true, if_false]
      rw [exec_eq]
      simp only [step, stepHeaderValue]
      rw [show LF = 10 from rfl, cut_append hv]
      simp only
      cases hb : (afterKey p name).valBuf.append v with
      | none => rfl
      | some vb =>
        obtain ⟨h1, rfl⟩ := Buf.append_inv hb
        have hfr : (afterKey p name).valBuf.start = (afterKey p name).valBuf.mem.length := hf.2
        have : ({ (afterKey p name).valBuf with mem := (afterKey p name).valBuf.mem ++ v } : Buf).segLen = v.length := by
          simp [Buf.segLen, hfr]
        simp only [this]
        rw [if_pos]
        · rfl
        · rcases hbig with hb | hb
          · exact hb
          · exact absurd h1 (by simp [limits] at hb; simp [afterKey]; omega)
  | valueOpen name v h13 h10 h58 hl hn hcl hv hbig =>
    refine sectionRead_here (.valueOpen name v h13 h10 h58 hl hn hcl hv hbig) ?_ ?_
    · intro f rest' e fl
      obtain ⟨e1, e2⟩ := same fl.ok h58 e
      exact hv (by rw [← e2]; simp)
    · rintro p hf rfl rfl rfl rfl
      refine both ?_
      rw [exec_goto (step_key F hf h58 (name_ok h13 h10) hl hn)]
      have hk : isContentLengthKey name = false := by
        cases hk : isContentLengthKey name with
        | false => rfl
        | true => exact absurd ((special_length name h13).1 hk) hcl
      simp only [valueLabel, hk, Bool.false_eq_true, if_false]
      rw [exec_eq]
      simp only [step, stepHeaderValue]
      rw [show LF = 10 from rfl, cut_none.2 hv]
      simp only
      cases hb : (afterKey p name).valBuf.append v with
      | none => rfl
      | some vb =>
        obtain ⟨h1, rfl⟩ := Buf.append_inv hb
        have hfr : (afterKey p name).valBuf.start = (afterKey p name).valBuf.mem.length := hf.2
        have : ({ (afterKey p name).valBuf with mem := (afterKey p name).valBuf.mem ++ v } : Buf).segLen = v.length := by
          simp [Buf.segLen, hfr]
        simp only [this]
        rw [if_pos]
        · rfl
        · rcases hbig with hb | hb
          · exact hb
          · exact absurd h1 (by simp [limits] at hb; simp [afterKey]; omega)
  | @next a b n f rest e ok h13 h10 hl hn hv hsec ih =>
    obtain ⟨fs, bad, i1, i2, i3, i4, i5, i6, i7⟩ := ih
    have hsum : ∀ x : Nat, a + (List.map (fun f => f.name.length) (f :: fs)).sum = a + f.name.length + (fs.map (fun f => f.name.length)).sum := by
      intro _; simp; omega
    have hval : b + ((List.filter (fun f => !f.isLength) (f :: fs)).map Field.rawLength).sum
        = b + (if f.isLength then 0 else f.rawLength) + ((fs.filter (fun f => !f.isLength)).map Field.rawLength).sum := by
      cases hfl : f.isLength <;> simp [List.filter, hfl]; omega
    have hlen' : n + (f :: fs).length = n + 1 + fs.length := by simp; omega
    refine ⟨f :: fs, bad, by simp [i1], ?_, ?_, ?_, ?_, ?_, ?_⟩
    · intro g hg
      rcases List.mem_cons.1 hg with rfl | hg
      · exact ⟨ok, ⟨h13, h10⟩, fun h => ⟨(hv h).1, (hv h).2.2⟩⟩
      · exact i2 g hg
    · intro _
      rw [hsum 0, hlen']
      cases fs with
      | nil => exact ⟨by simpa using hl, by simpa using hn⟩
      | cons x xs => exact i3 (by simp)
    · intro hne
      rw [hval]
      cases hfs : fs.filter (fun f => !f.isLength) with
      | cons x xs => rw [hfs] at i4; exact i4 (by simp)
      | nil =>
        cases hfl : f.isLength with
        | true => simp [List.filter, hfl, hfs] at hne
        | false => simpa using (hv hfl).2.1
    · rw [hsum 0, hval, hlen']; exact i5
    · rw [hsum 0, hval, hlen']; exact i6
    · rintro p hf rfl rfl rfl rfl
      have hlen : isContentLengthKey f.name = f.isLength := isLength_eq h13
      have hraw := rawValue_length f
      rw [exec_field F rest hf ((fieldOK_iff h13).2 ok) ⟨hl, hn, by
        intro hk
        rw [hlen] at hk
        obtain ⟨a1, a2, a3⟩ := hv hk
        rw [hraw]
        exact ⟨a2, a1, a3⟩⟩]
      obtain ⟨b1, b2, b3, b4, b5, b6, b7⟩ := afterField_bufs F p f
      refine i7 _ (fresh_afterField F f hf) ?_ ?_ ?_ b3
      · simp [limits, b2, b4, b5, b7]
      · simp [b1]
      · rw [b6, hlen]
        cases f.isLength <;> simp [hraw]

theorem noFirstLine_cut {L : Limits} {m t : Bytes} (h32 : 32 ∉ m) (h : ∀ k : Method, k ≠ .Unknown → m ≠ methodName k) : NoFirstLine L (m ++ 32 :: t) := by
  intro hd rest ok _ _ e
  rw [Head.firstLine, List.append_assoc, List.cons_append] at e
  exact h hd.method ok.method (cut_unique e h32 (methodName_facts _ ok.method).1).1

theorem noHeaders_line {r : Request} (hr : Cleared r) (k : Method) (line : Bytes) : NoHeaders (requestLine { r with Method := k } line).1 := by
  obtain ⟨_, h2, h3, h4, h5, h6, h7⟩ := hr
  unfold requestLine
  dsimp only
  repeat' split
  all_goals exact ⟨h2, h3, h4, h5, h6, h7⟩

/-- What is in the request object when the parser refuses a head. -/
theorem head_read (F : Fold) {p : PState} (hp : Ready p) (hr : Cleared p.req) {s : Bytes} {e : Status.HTTPError} (h : HeadFault (limits p) s e) :
    ReadSoFar F (limits p) p.cfg.maxEncodingTokens s e (exec F .method p s).1.req := by
  have hs : p.startLine.segLen = 0 := by simp [Buf.segLen, hp.startLine.1]
  have clear : NoHeaders p.req := ⟨hr.headers, hr.contentLength, hr.connection, hr.contentType, hr.upgrade, hr.encoding⟩
  have methods : ∀ {m t : Bytes}, 32 ∉ m → (∀ k : Method, k ≠ .Unknown → m ≠ methodName k) →
      ReadSoFar F (limits p) p.cfg.maxEncodingTokens (m ++ 32 :: t) e (exec F .method p (m ++ 32 :: t)).1.req := by
    intro m t h1 hu
    refine .line (noFirstLine_cut h1 hu) ?_
    rw [exec_eq]
    simp only [step, stepMethod]
    rw [show SP = 32 from rfl, cut_append h1]
    simp only [takeMethod, hs, if_true, finishMethod]
    by_cases hm : m.length = 0
    · rw [if_pos hm]; exact clear
    · rw [if_neg hm]
      have : Method.parse m = .Unknown := by
        cases Decidable.em (Method.parse m = .Unknown) with
        | inl h => exact h
        | inr h => exact absurd ((Props.C15_method_recognised_iff m _ h).1 rfl) (hu _ h)
      rw [if_pos this]
      exact ⟨hr.headers, hr.contentLength, hr.connection, hr.contentType, hr.upgrade, hr.encoding⟩
  cases h with
  | noMethod rest => exact methods (m := []) (by simp) (fun k hk e => (methodName_facts k hk).2.1 e.symm)
  | unknownMethod m rest h1 hne hu => exact methods h1 (fun k _ => hu k)
  | line m line rest _ h1 h2 h3 h4 =>
    by_cases hk : ∃ k : Method, k ≠ .Unknown ∧ m = methodName k
    case neg => exact methods h1 (fun k hk' e => hk ⟨k, hk', e⟩)
    obtain ⟨k, hk, rfl⟩ := hk
    refine .line ?_ ?_
    · intro hd rest' ok hesc hl e
      obtain ⟨s, hs⟩ := pct_of_escapable hesc
      have hd' : UriDecode.Decode hd.target = some s := by rw [UriDecode.Decode_eq]; exact hs
      rw [Head.firstLine, List.append_assoc, List.cons_append] at e
      obtain ⟨_, e2⟩ := cut_unique e h1 (methodName_facts _ ok.method).1
      rw [show hd.line ++ eol hd.crlf ++ rest' = fullLine hd ++ 10 :: rest' by simp [fullLine, eol_eq]] at e2
      have e3 := (cut_unique e2 h2 (fullLine_lf ok)).1
      have := requestLine_fault hk h4 p.req
      rw [e3, requestLine_head ok hd'] at this
      cases this
    · rw [exec_goto (exec_method F hp hk _), exec_eq]
      have hb : p.startLine.append line = some { p.startLine with mem := line } := by
        simp [Buf.append, hp.startLine.1]; simp only [limits] at h3; omega
      simp only [step, stepPath]
      rw [show LF = 10 from rfl, cut_append h2]
      simp only [hb, Buf.finish, Buf.seg, hp.startLine.2, List.drop_zero, finishPath]
      have hf := requestLine_fault hk h4 { p.req with Method := k }
      have hn := noHeaders_line hr k line
      rcases hr : requestLine { p.req with Method := k } line with ⟨r, o⟩
      rw [hr] at hf hn
      dsimp only at hf hn
      subst hf
      exact hn
  | fields h rest _ ok hesc hl hsec =>
    obtain ⟨s, hs⟩ := pct_of_escapable hesc
    have hd : UriDecode.Decode h.target = some s := by rw [UriDecode.Decode_eq]; exact hs
    have hline : (fullLine h).length ≤ p.startLine.max := by
      rw [← fullLine_length] at hl; simp [limits] at hl; omega
    have hx : exec F .method p (methodName h.method ++ 32 :: (h.line ++ eol h.crlf ++ rest)) = exec F .headerKey (afterRequestLine p h s) rest := by
      rw [show h.line ++ eol h.crlf ++ rest = fullLine h ++ 10 :: rest by simp [fullLine, eol_eq]]
      rw [exec_goto (exec_method F hp ok.method _)]
      have hstep : step F .path { p with req := { p.req with Method := h.method } } (fullLine h ++ 10 :: rest) =
          .goto .headerKey (afterRequestLine p h s) rest := by
        have hb : p.startLine.append (fullLine h) = some { p.startLine with mem := fullLine h } := by
          simp [Buf.append, hp.startLine.1]; exact hline
        simp only [step, stepPath]
        rw [show LF = 10 from rfl, cut_append (fullLine_lf ok)]
        simp only [hb, Buf.finish, Buf.seg, hp.startLine.2, List.drop_zero, finishPath, requestLine_head ok hd]
        rfl
      rw [exec_goto hstep]
    rw [hx]
    obtain ⟨fs, bad, i1, i2, i3, i4, i5, i6, i7⟩ := section_read F hsec
    obtain ⟨j1, j2⟩ := i7 (afterRequestLine p h s)
      (by simp [Fresh, afterRequestLine, hp.keyBuf.1, hp.keyBuf.2, hp.valBuf.1, hp.valBuf.2]) rfl
      (by simp [afterRequestLine, hp.keyBuf.1]) (by simp [afterRequestLine, hp.valBuf.1]) hp.number
    simp only [Nat.zero_add] at i3 i4 i5 i6
    have hc : Head.CleanNames { h with fields := fs } := fun f hf => (i2 f hf).2.1
    have C := carries_head F hp hr (h := { h with fields := fs }) hc (path := s) hd ok.version.1
    refine .fields { h with fields := fs } bad (fs.foldl (afterField F) (afterRequestLine p h s)).req.ContentLength ?_
      ⟨⟨ok.method, ok.target, ok.query, ok.version, fun f hf => (i2 f hf).1⟩, hesc, hc, fun f hf h1 h2 => ((i2 f hf).2.2 h1).2 h2, ?_, i5, i6⟩ ?_ ?_
    · rw [i1]; simp [Head.firstLine, Head.line]
    · refine ⟨hl, ?_, ?_, ?_, fun f hf h1 => ((i2 f hf).2.2 h1).1⟩
      · cases fs with
        | nil => exact Nat.zero_le _
        | cons x xs => exact (i3 (by simp)).1
      · cases hfs : fs.filter (fun f => !f.isLength) with
        | nil => exact Nat.zero_le _
        | cons x xs => rw [hfs] at i4; exact i4 (by simp)
      · cases fs with
        | nil => exact Nat.zero_le _
        | cons x xs => exact (i3 (by simp)).2
    · intro hn; rw [j2 hn]
    · have : { (exec F .headerKey (afterRequestLine p h s) rest).1.req with
          ContentLength := (fs.foldl (afterField F) (afterRequestLine p h s)).req.ContentLength } = (fs.foldl (afterField F) (afterRequestLine p h s)).req := by
        have := congrArg (fun r : Request => { r with ContentLength := (fs.foldl (afterField F) (afterRequestLine p h s)).req.ContentLength }) j1
        exact this
      rw [this]
      exact C

/-- The same, however the stream is cut into segments. -/
theorem feed_read (F : Fold) (p : PState) (hp : Ready p) (hr : Cleared p.req) (segs : List Bytes) {e : Status.HTTPError}
    (fits : RequestLineFits p.startLine.max segs.flatten) (clean : CleanStream segs.flatten) (fault : HeadFault (limits p) segs.flatten e) :
    ReadSoFar F (limits p) p.cfg.maxEncodingTokens segs.flatten e (feed F p segs).1.req := by
  have hfeed := feed_eq F segs p (hp.cond fits clean)
  have hx := head_fault F hp fault
  have hy := head_read F hp hr fault
  rw [hp.state] at hfeed
  rcases hf : feed F p segs with ⟨p', r, rest⟩
  rw [hf] at hfeed
  cases r with
  | completed ex =>
    simp only [FeedRel] at hfeed
    rw [hfeed] at hx
    cases hx
  | pending => exact absurd (hfeed.1.symm.trans hx) nofun
  | panic => exact absurd (hfeed.1.symm.trans hx) nofun
  | error e' =>
    have := hfeed.2
    rw [← this]
    exact hy

end Indigo.Parser
