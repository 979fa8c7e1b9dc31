/-
The parser on whole heads: every well-formed header line is processed as `afterField`, and an accepted
header section consists of such lines.
-/
import Verif.Proofs.ParserBase
import Verif.Proofs.Proto
import Verif.Proofs.ParserSplit
import Verif.Spec.Head

namespace Indigo.Parser
open Indigo.Spec

/-- Nothing is pending in the key and value buffers. -/
def Fresh (p : PState) : Prop :=
  p.keyBuf.start = p.keyBuf.mem.length ∧ p.valBuf.start = p.valBuf.mem.length

/-- The bytes of a field value which go through the value buffer. -/
def rawValue (f : Field) : Bytes := List.replicate f.pad 32 ++ (f.value ++ if f.crlf then [13] else [])

def addDigits (n : Int) (v : Bytes) : Int :=
  (v.filter isDigit).foldl (fun n c => wrap64 (n * 10 + (c - 48).toNat)) n

def afterKey (p : PState) (name : Bytes) : PState :=
  { p with keyBuf := { p.keyBuf with mem := p.keyBuf.mem ++ name, start := p.keyBuf.mem.length + name.length }
           headerKey := name
           headersNumber := p.headersNumber + 1 }

def afterValue (F : Fold) (p : PState) (f : Field) : PState :=
  if isContentLengthKey f.name then
    { p with contentLength := addDigits p.contentLength f.value
             req := { p.req with ContentLength := addDigits p.contentLength f.value } }
  else
    storeHeader F
      { p with valBuf := { p.valBuf with mem := p.valBuf.mem ++ rawValue f,
                                         start := p.valBuf.mem.length + (rawValue f).length } } f.name f.value

/-- State after a header line. -/
def afterField (F : Fold) (p : PState) (f : Field) : PState := afterValue F (afterKey p f.name) f

/-- The line is well-formed (as the parser sees it). -/
structure FieldOK (f : Field) : Prop where
  name_colon : 58 ∉ f.name
  name_head : f.name.head? ≠ some 13 ∧ f.name.head? ≠ some 10
  value_lf : 10 ∉ f.value
  value_head : f.value.head? ≠ some 32
  value_last : f.crlf = false → f.value.getLast? ≠ some 13
  value_length : isContentLengthKey f.name = true → ∀ c ∈ f.value, c = 32 ∨ isDigit c = true

/-- The line passes the limits in state `p` and does not make the parser panic. -/
structure FieldFits (p : PState) (f : Field) : Prop where
  key : p.keyBuf.mem.length + f.name.length ≤ p.keyBuf.max
  number : p.headersNumber + 1 ≤ p.cfg.maxNumber
  value : isContentLengthKey f.name = false →
    p.valBuf.mem.length + (rawValue f).length ≤ p.valBuf.max ∧ (rawValue f).length ≤ p.cfg.maxValueLength ∧
      (f.crlf = false → f.value ≠ [])

theorem eol_eq (c : Bool) : eol c = (if c then [13] else []) ++ [10] := by cases c <;> rfl

theorem render_append (f : Field) (D : Bytes) :
    f.render ++ D = f.name ++ 58 :: (List.replicate f.pad 32 ++ (f.value ++ (eol f.crlf ++ D))) := by
  simp [Field.render]

theorem Buf.append_fresh {b : Buf} {d : Bytes} (hs : b.start = b.mem.length) (h : b.mem.length + d.length ≤ b.max) :
    b.append d = some { b with mem := b.mem ++ d } ∧
    ({ b with mem := b.mem ++ d } : Buf).finish =
      (d, { b with mem := b.mem ++ d, start := b.mem.length + d.length }) ∧
    ({ b with mem := b.mem ++ d } : Buf).segLen = d.length := by
  refine ⟨?_, ?_, ?_⟩
  · simp [Buf.append]; omega
  · simp [Buf.finish, Buf.seg, hs]
  · simp [Buf.segLen, hs]

theorem Buf.append_inv {b b' : Buf} {d : Bytes} (h : b.append d = some b') :
    b.mem.length + d.length ≤ b.max ∧ b' = { b with mem := b.mem ++ d } := by
  unfold Buf.append at h
  split at h
  · simp at h
  · simp at h; exact ⟨by omega, h.symm⟩

theorem step_key (F : Fold) {p : PState} {name D : Bytes} (hf : Fresh p) (h58 : 58 ∉ name)
    (hh : name.head? ≠ some 13 ∧ name.head? ≠ some 10)
    (hk : p.keyBuf.mem.length + name.length ≤ p.keyBuf.max) (hn : p.headersNumber + 1 ≤ p.cfg.maxNumber) :
    step F .headerKey p (name ++ 58 :: D) = .goto (valueLabel name) (afterKey p name) D := by
  obtain ⟨h1, h2, _⟩ := Buf.append_fresh (d := name) hf.1 hk
  simp only [step, stepHeaderKey]
  have hcut := cut_append (b := D) h58
  have hne : ∃ c cs, name ++ 58 :: D = c :: cs ∧ c ≠ LF ∧ c ≠ CR := by
    cases name with
    | nil => exact ⟨58, D, rfl, by decide, by decide⟩
    | cons c cs => exact ⟨c, cs ++ 58 :: D, rfl, by simpa using hh.2, by simpa using hh.1⟩
  obtain ⟨c, cs, e, hc1, hc2⟩ := hne
  rw [e]
  dsimp only
  rw [if_neg hc1, if_neg hc2, ← e]
  simp only [COLON, hcut, h1]
  rw [h2]
  dsimp only
  rw [if_neg (by omega)]
  rfl

theorem clDigits_value (n : Int) (v D : Bytes) (h : ∀ c ∈ v, c = 32 ∨ isDigit c = true) :
    clDigits n (v ++ D) = clDigits (addDigits n v) D := by
  induction v generalizing n with
  | nil => rfl
  | cons c cs ih =>
    have hc := h c (by simp)
    have ih' := fun m => ih m (fun c hc => h c (by simp [hc]))
    simp only [List.cons_append, clDigits]
    rcases hc with rfl | hc
    · simp [ih', addDigits, isDigit]
    · have h32 : c ≠ SP := by intro e; subst e; simp [isDigit, SP] at hc
      have h2 : ¬ (c < 48 ∨ c > 57) := by
        simp [isDigit, UInt8.le_iff_toNat_le, UInt8.lt_iff_toNat_lt] at hc ⊢; omega
      rw [if_neg h32, if_neg h2, ih']
      simp [addDigits, hc]

theorem clDigits_blanks (n : Int) (k : Nat) (D : Bytes) :
    clDigits n (List.replicate k 32 ++ D) = clDigits n D := by
  rw [clDigits_value _ _ _ (by intro c hc; left; exact (List.mem_replicate.1 hc).2)]
  congr 1
  simp [addDigits, isDigit]

theorem clDigits_eol (n : Int) (c : Bool) (D : Bytes) : clDigits n (eol c ++ D) = (n, eol c ++ D) := by
  cases c <;> simp [eol, clDigits, SP]

theorem trim_raw {f : Field} (ok : FieldOK f) (hne : f.crlf = false → f.value ≠ []) :
    ∃ last, (trimLeftSp (rawValue f)).getLast? = some last ∧
      (if last = CR then (trimLeftSp (rawValue f)).dropLast else trimLeftSp (rawValue f)) = f.value := by
  have ht : trimLeftSp (rawValue f) = f.value ++ if f.crlf then [13] else [] := by
    unfold rawValue
    apply trimLeftSp_replicate
    cases hv : f.value with
    | nil => cases f.crlf <;> simp [SP]
    | cons x xs => have := ok.value_head; rw [hv] at this; simpa using this
  rw [ht]
  cases hc : f.crlf with
  | true => exact ⟨13, by simp, by simp⟩
  | false =>
    have hv := hne hc
    have hl := ok.value_last hc
    simp only [Bool.false_eq_true, if_false, List.append_nil]
    refine ⟨f.value.getLast hv, List.getLast?_eq_some_getLast hv, ?_⟩
    rw [if_neg]
    intro e; apply hl; rw [List.getLast?_eq_some_getLast hv, e]

theorem storeHeader_state (F : Fold) (p : PState) (k v : Bytes) :
    (storeHeader F p k v).keyBuf = p.keyBuf ∧ (storeHeader F p k v).valBuf = p.valBuf ∧
    (storeHeader F p k v).headersNumber = p.headersNumber ∧ (storeHeader F p k v).cfg = p.cfg ∧
    (storeHeader F p k v).contentLength = p.contentLength ∧ (storeHeader F p k v).startLine = p.startLine := by
  unfold storeHeader; simp

theorem fresh_afterField (F : Fold) {p : PState} (f : Field) (h : Fresh p) : Fresh (afterField F p f) := by
  unfold afterField afterValue
  split
  · refine ⟨?_, ?_⟩ <;> simp [afterKey, h.2]
  · refine ⟨?_, ?_⟩
    · rw [(storeHeader_state ..).1]; simp [afterKey]
    · rw [(storeHeader_state ..).2.1]; simp [afterKey]

/-- One header line. -/
theorem exec_field (F : Fold) {p : PState} {f : Field} (D : Bytes) (hf : Fresh p) (ok : FieldOK f)
    (fits : FieldFits p f) :
    exec F .headerKey p (f.render ++ D) = exec F .headerKey (afterField F p f) D := by
  rw [render_append]
  rw [exec_goto (step_key F hf ok.name_colon ok.name_head fits.key fits.number)]
  unfold valueLabel afterField afterValue
  cases hk : isContentLengthKey f.name with
  | true =>
    simp only [if_true]
    have e : clDigits (afterKey p f.name).contentLength
        (List.replicate f.pad 32 ++ (f.value ++ (eol f.crlf ++ D))) =
        (addDigits (afterKey p f.name).contentLength f.value, eol f.crlf ++ D) := by
      rw [clDigits_blanks, clDigits_value _ _ _ (ok.value_length hk), clDigits_eol]
    rw [exec_eq]
    simp only [step, stepContentLength, e]
    cases f.crlf with
    | false => simp [eol, CR, LF]
    | true =>
      simp only [eol, if_true, List.cons_append, List.nil_append]
      rw [exec_eq]
      simp [step, stepContentLengthCR, LF]
  | false =>
    obtain ⟨h1, h2, h3⟩ := fits.value hk
    obtain ⟨last, hl1, hl2⟩ := trim_raw ok h3
    have e : List.replicate f.pad 32 ++ (f.value ++ (eol f.crlf ++ D)) = rawValue f ++ 10 :: D := by
      rw [eol_eq]; simp [rawValue]
    have hlf : 10 ∉ rawValue f := by
      have := ok.value_lf
      unfold rawValue
      cases f.crlf <;> simp [this]
    obtain ⟨b1, b2, b3⟩ := Buf.append_fresh (b := (afterKey p f.name).valBuf) (d := rawValue f) hf.2 h1
    rw [e, exec_eq]
    simp only [step, stepHeaderValue, cut_append hlf, Bool.false_eq_true, if_false, b1, b3]
    rw [if_neg (by show ¬ (rawValue f).length > p.cfg.maxValueLength; omega)]
    simp only [b2, hl1, hl2]
    rfl

/-- All lines of a header section pass the limits. -/
def FieldsFit (F : Fold) : PState → List Field → Prop
  | _, [] => True
  | p, f :: fs => FieldFits p f ∧ FieldsFit F (afterField F p f) fs

theorem exec_end (F : Fold) (p : PState) (c : Bool) (D : Bytes) :
    exec F .headerKey p (eol c ++ D) = (cleanup p, .completed D) := by
  cases c with
  | false => rw [exec_eq]; simp [eol, step, stepHeaderKey, LF]
  | true =>
    have : step F .headerKey p (eol true ++ D) = .goto .headerValueCRLFCR p (10 :: D) := by
      simp [eol, step, stepHeaderKey, LF, CR]
    rw [exec_goto this, exec_eq]; simp [step, stepCRLFCR, LF]

theorem exec_fields (F : Fold) (fs : List Field) : ∀ {p : PState} (c : Bool) (D : Bytes), Fresh p →
    (∀ f ∈ fs, FieldOK f) → FieldsFit F p fs →
    exec F .headerKey p (fs.flatMap Field.render ++ (eol c ++ D)) =
      (cleanup (fs.foldl (afterField F) p), .completed D) := by
  induction fs with
  | nil => intro p c D _ _ _; simpa using exec_end F p c D
  | cons f fs ih =>
    intro p c D hf hok hfit
    simp only [List.flatMap_cons, List.foldl_cons, List.append_assoc]
    rw [exec_field F _ hf (hok f (by simp)) hfit.1]
    exact ih c D (fresh_afterField F f hf) (fun g hg => hok g (by simp [hg])) hfit.2

/-! ### The converse -/

theorem clDigits_inv {n m : Int} {d rest : Bytes} (h : clDigits n d = (m, rest)) :
    ∃ v, d = v ++ rest ∧ (∀ c ∈ v, c = 32 ∨ isDigit c = true) ∧ m = addDigits n v := by
  induction d generalizing n with
  | nil => simp [clDigits] at h; obtain ⟨rfl, rfl⟩ := h; exact ⟨[], rfl, by simp, rfl⟩
  | cons c cs ih =>
    simp only [clDigits] at h
    split at h
    · rename_i hc
      obtain ⟨v, rfl, h1, h2⟩ := ih h
      refine ⟨c :: v, rfl, ?_, ?_⟩
      · intro x hx; simp at hx; rcases hx with rfl | hx
        · exact .inl hc
        · exact h1 x hx
      · rw [h2]; subst hc; rfl
    · split at h
      · simp at h; obtain ⟨rfl, rfl⟩ := h; exact ⟨[], rfl, by simp, rfl⟩
      · rename_i hc hc2
        have hd : isDigit c = true := by
          simp [isDigit, UInt8.le_iff_toNat_le, UInt8.lt_iff_toNat_lt] at hc2 ⊢; omega
        obtain ⟨v, rfl, h1, h2⟩ := ih h
        refine ⟨c :: v, rfl, ?_, ?_⟩
        · intro x hx; simp at hx; rcases hx with rfl | hx
          · exact .inr hd
          · exact h1 x hx
        · rw [h2]; simp [addDigits, hd]

/-- Splitting off leading blanks. -/
theorem blanks_split (v : Bytes) : ∃ k w, v = List.replicate k 32 ++ w ∧ w.head? ≠ some 32 ∧
    trimLeftSp v = w := by
  induction v with
  | nil => exact ⟨0, [], rfl, by simp, rfl⟩
  | cons c cs ih =>
    by_cases hc : c = 32
    · obtain ⟨k, w, rfl, h1, h2⟩ := ih
      exact ⟨k + 1, w, by simp [hc, List.replicate_succ], h1, by simp [trimLeftSp, hc, h2]⟩
    · exact ⟨0, c :: cs, rfl, by simpa using hc, by simp [trimLeftSp, hc]⟩

theorem head_inv {name : Bytes} {D : Bytes} {c : Byte} {cs : Bytes} (e : c :: cs = name ++ 58 :: D)
    (h1 : c ≠ LF) (h2 : c ≠ CR) : name.head? ≠ some 13 ∧ name.head? ≠ some 10 := by
  cases name with
  | nil => simp
  | cons x xs => simp at e; obtain ⟨rfl, _⟩ := e; simp; exact ⟨h2, h1⟩

/-- What an accepted header section looks like. -/
theorem exec_fields_inv (F : Fold) : ∀ (n : Nat) (p : PState) (D : Bytes), D.length ≤ n → Fresh p →
    ∀ p' ex, exec F .headerKey p D = (p', .completed ex) →
    ∃ fs c, D = fs.flatMap Field.render ++ (eol c ++ ex) ∧ (∀ f ∈ fs, FieldOK f) ∧ FieldsFit F p fs ∧
      p' = cleanup (fs.foldl (afterField F) p) := by
  intro n
  induction n with
  | zero =>
    intro p D hD hf p' ex h
    have : D = [] := by cases D <;> simp at hD ⊢
    subst this
    rw [exec_eq] at h; simp [step, stepHeaderKey] at h
  | succ n ih =>
    intro p D hD hf p' ex h
    cases D with
    | nil => rw [exec_eq] at h; simp [step, stepHeaderKey] at h
    | cons c cs =>
      by_cases h10 : c = LF
      · subst h10
        rw [exec_eq] at h; simp [step, stepHeaderKey] at h
        exact ⟨[], false, by simp [eol, h.2], by simp, trivial, h.1.symm⟩
      by_cases h13 : c = CR
      · subst h13
        rw [exec_eq] at h; simp [step, stepHeaderKey, LF, CR] at h
        rw [exec_eq] at h; simp only [step, stepCRLFCR] at h
        cases cs with
        | nil => simp at h
        | cons x xs =>
          simp only at h
          by_cases hx : x = LF
          · simp only [if_pos hx] at h
            simp at h
            exact ⟨[], true, by simp [eol, h.2, hx, CR, LF], by simp, trivial, h.1.symm⟩
          · simp [if_neg hx] at h
      cases hcut : cut COLON (c :: cs) with
      | none =>
        rw [exec_eq] at h
        simp only [step, stepHeaderKey, if_neg h10, if_neg h13, hcut] at h
        cases hb : p.keyBuf.append (c :: cs) <;> simp [hb] at h
      | some kr =>
        obtain ⟨name, rest⟩ := kr
        obtain ⟨e, h58⟩ := cut_some hcut
        have hlen : rest.length ≤ n := by
          have := congrArg List.length e; simp at this hD; omega
        have hhead := head_inv e h10 h13
        by_cases hk : p.keyBuf.mem.length + name.length ≤ p.keyBuf.max
        case neg =>
          rw [exec_eq] at h
          simp only [step, stepHeaderKey, if_neg h10, if_neg h13, hcut] at h
          have : p.keyBuf.append name = none := by simp [Buf.append]; omega
          simp [this] at h
        by_cases hn : p.headersNumber + 1 ≤ p.cfg.maxNumber
        case neg =>
          rw [exec_eq] at h
          simp only [step, stepHeaderKey, if_neg h10, if_neg h13, hcut] at h
          obtain ⟨b1, b2, _⟩ := Buf.append_fresh (d := name) hf.1 hk
          simp only [b1, b2] at h
          rw [if_pos (by omega)] at h
          simp at h
        rw [e, exec_goto (step_key F hf h58 hhead hk hn)] at h
        cases hl : isContentLengthKey name with
        | true =>
          simp only [valueLabel, hl, if_true] at h
          rw [exec_eq] at h
          simp only [step, stepContentLength] at h
          cases hcl : clDigits (afterKey p name).contentLength rest with
          | mk m r2 =>
          obtain ⟨v, rfl, hv, hm⟩ := clDigits_inv hcl
          obtain ⟨k, w, rfl, hw, _⟩ := blanks_split v
          have hm' : m = addDigits p.contentLength w := by
            rw [hm]; show addDigits p.contentLength _ = _
            unfold addDigits; simp [List.filter_append, isDigit]
          have hwd : ∀ c ∈ w, c = 32 ∨ isDigit c = true := fun c hc => hv c (by simp [hc])
          have hw10 : 10 ∉ w := by
            intro hx; have := hwd 10 hx; simp [isDigit] at this
          have hw13 : 13 ∉ w := by
            intro hx; have := hwd 13 hx; simp [isDigit] at this
          simp only [hcl] at h
          have main : ∀ (b : Bool) (r3 : Bytes), r2 = eol b ++ r3 →
              exec F .headerKey (afterField F p ⟨name, k, w, b⟩) r3 = (p', .completed ex) →
              ∃ fs c, name ++ COLON :: (List.replicate k 32 ++ w ++ r2) =
                fs.flatMap Field.render ++ (eol c ++ ex) ∧ (∀ f ∈ fs, FieldOK f) ∧ FieldsFit F p fs ∧
                p' = cleanup (fs.foldl (afterField F) p) := by
            intro b r3 hr h
            obtain ⟨fs, c', e1, e2, e3, e4⟩ := ih _ r3 (by subst hr; simp at hlen; cases b <;> simp [eol] at hlen <;> omega)
              (fresh_afterField F _ hf) _ _ h
            refine ⟨⟨name, k, w, b⟩ :: fs, c', ?_, ?_, ?_, ?_⟩
            · subst hr; subst e1; simp [Field.render]
            · intro f hfm
              simp at hfm
              rcases hfm with rfl | hfm
              · exact ⟨h58, hhead, hw10, hw, fun _ hx => hw13 (List.mem_of_getLast? hx), fun _ => hwd⟩
              · exact e2 f hfm
            · exact ⟨⟨hk, hn, fun hh => by simp [hl] at hh⟩, e3⟩
            · exact e4
          have hstate : ∀ b, afterField F p ⟨name, k, w, b⟩ =
              { afterKey p name with contentLength := m, req := { p.req with ContentLength := m } } := by
            intro b
            simp only [afterField, afterValue, hl, if_true, hm']; rfl
          rw [e]
          cases r2 with
          | nil => simp at h
          | cons x xs =>
            simp only at h
            by_cases hx : x = CR
            · subst hx
              simp only [if_true] at h
              rw [exec_eq] at h
              simp only [step, stepContentLengthCR] at h
              cases xs with
              | nil => simp at h
              | cons y ys =>
                simp only at h
                by_cases hy : y = LF
                · subst hy
                  simp only [ne_eq, not_true_eq_false, if_false] at h
                  refine main true ys rfl ?_
                  rw [hstate]; exact h
                · simp [hy] at h
            · by_cases hx2 : x = LF
              · subst hx2
                simp only [if_neg hx, if_true] at h
                refine main false xs rfl ?_
                rw [hstate]; exact h
              · simp [if_neg hx, if_neg hx2] at h
        | false =>
          simp only [valueLabel, hl, Bool.false_eq_true, if_false] at h
          rw [exec_eq] at h
          simp only [step, stepHeaderValue] at h
          cases hlf : cut LF rest with
          | none =>
            simp only [hlf] at h
            cases hb : (afterKey p name).valBuf.append rest with
            | none => simp [hb] at h
            | some vb =>
              simp only [hb] at h
              split at h <;> rename_i hs <;> split at hs <;> first | (cases hs; done) | (cases hs; simp at h)
          | some lr =>
            obtain ⟨line, r2⟩ := lr
            obtain ⟨rfl, h10'⟩ := cut_some hlf
            simp only [hlf] at h
            by_cases hv : p.valBuf.mem.length + line.length ≤ p.valBuf.max
            case neg =>
              have : (afterKey p name).valBuf.append line = none := by
                simp [Buf.append, afterKey]; omega
              simp [this] at h
            obtain ⟨b1, b2, b3⟩ := Buf.append_fresh (b := (afterKey p name).valBuf) (d := line) hf.2 hv
            simp only [b1, b3] at h
            by_cases hml : line.length ≤ p.cfg.maxValueLength
            case neg =>
              rw [if_pos (by show line.length > p.cfg.maxValueLength; omega)] at h
              simp at h
            rw [if_neg (by show ¬ line.length > p.cfg.maxValueLength; omega)] at h
            simp only [b2] at h
            obtain ⟨k, w, rfl, hw, hw2⟩ := blanks_split line
            rw [hw2] at h
            cases hlast : w.getLast? with
            | none => simp [hlast] at h
            | some last =>
              simp only [hlast] at h
              have main : ∀ (b : Bool) (v : Bytes), w = v ++ (if b then [13] else []) →
                  (b = false → v ≠ [] ∧ v.getLast? ≠ some 13) →
                  exec F .headerKey (afterField F p ⟨name, k, v, b⟩) r2 = (p', .completed ex) →
                  ∃ fs c, name ++ COLON :: (List.replicate k 32 ++ w ++ LF :: r2) =
                    fs.flatMap Field.render ++ (eol c ++ ex) ∧ (∀ f ∈ fs, FieldOK f) ∧ FieldsFit F p fs ∧
                    p' = cleanup (fs.foldl (afterField F) p) := by
                intro b v hwv hb h
                obtain ⟨fs, c', e1, e2, e3, e4⟩ := ih _ r2 (by simp at hlen; omega)
                  (fresh_afterField F _ hf) _ _ h
                refine ⟨⟨name, k, v, b⟩ :: fs, c', ?_, ?_, ?_, ?_⟩
                · subst e1; subst hwv; simp [Field.render, eol_eq]
                · intro f hfm
                  simp at hfm
                  rcases hfm with rfl | hfm
                  · refine ⟨h58, hhead, ?_, ?_, fun hb' => (hb hb').2, fun hh => by simp [hl] at hh⟩
                    · intro hx; apply h10'; subst hwv; simp; exact .inr (.inl hx)
                    · subst hwv
                      intro hx; apply hw
                      cases v with
                      | nil => simp at hx
                      | cons x xs => simpa using hx
                  · exact e2 f hfm
                · refine ⟨⟨hk, hn, fun _ => ?_⟩, e3⟩
                  have : rawValue ⟨name, k, v, b⟩ = List.replicate k 32 ++ w := by simp [rawValue, hwv]
                  rw [this]
                  exact ⟨hv, hml, fun hb' => (hb hb').1⟩
                · exact e4
              have hstate : ∀ b v, w = v ++ (if b = true then [13] else []) →
                  afterField F p ⟨name, k, v, b⟩ = storeHeader F
                    { afterKey p name with valBuf := { p.valBuf with
                        mem := p.valBuf.mem ++ (List.replicate k 32 ++ w),
                        start := p.valBuf.mem.length + (List.replicate k 32 ++ w).length } } name v := by
                intro b v hwv
                have : rawValue ⟨name, k, v, b⟩ = List.replicate k 32 ++ w := by simp [rawValue, hwv]
                simp only [afterField, afterValue, hl, Bool.false_eq_true, if_false, this]; rfl
              rw [e]
              have hwne : w ≠ [] := by intro e; simp [e] at hlast
              by_cases h13' : last = CR
              · subst h13'
                rw [if_pos rfl] at h
                have hwv : w = w.dropLast ++ [13] := by
                  have := List.dropLast_concat_getLast hwne
                  rw [List.getLast?_eq_some_getLast hwne] at hlast
                  simp at hlast; rw [hlast] at this; exact this.symm
                refine main true w.dropLast hwv nofun ?_
                rw [hstate true w.dropLast hwv]; exact h
              · rw [if_neg h13'] at h
                refine main false w (by simp) (fun _ => ⟨hwne, by rw [hlast]; simpa using h13'⟩) ?_
                rw [hstate false w (by simp)]; exact h

/-! ### The request line -/

/-- The request line of a head, with CR, as it is cut at LF. -/
def fullLine (h : Head) : Bytes := h.line ++ if h.crlf then [13] else []

theorem isVersion_fromBytes {v : Bytes} {p : Proto} (h : IsVersion v p) : Proto.fromBytes v = p ∧ p ≠ Proto.Unknown := by
  obtain ⟨sep, ⟨rfl, rfl⟩ | ⟨rfl, rfl⟩ | ⟨rfl, rfl⟩⟩ := h
  · exact ⟨rfl, by decide⟩
  · exact ⟨rfl, by decide⟩
  · exact ⟨rfl, by decide⟩

theorem fromBytes_isVersion {v : Bytes} (h : Proto.fromBytes v ≠ Proto.Unknown) :
    IsVersion v (Proto.fromBytes v) := by
  unfold Proto.fromBytes at h ⊢
  split
  · rename_i a b c d e major sep minor
    simp only at h
    split
    · rename_i he
      rw [if_pos he] at h
      simp at he
      obtain ⟨rfl, rfl, rfl, rfl, rfl⟩ := he
      refine ⟨sep, ?_⟩
      rw [Proto.parse_eq] at h ⊢
      split at h
      · simp at h
      · rename_i h9
        rw [if_neg h9]
        have key : ∀ x y : Byte, x - 48 = y → x = y + 48 := by
          intro x y e; rw [← e]; simp
        split at h
        · rename_i hh; rw [if_pos hh]
          have h1 := key _ _ hh.1; have h2 := key _ _ hh.2
          left; simp [h1, h2]
        · rename_i hh; rw [if_neg hh]
          split at h
          · rename_i hh; rw [if_pos hh]
            have h1 := key _ _ hh.1; have h2 := key _ _ hh.2
            right; left; simp [h1, h2]
          · rename_i hh; rw [if_neg hh]
            split at h
            · rename_i hh; rw [if_pos hh]
              have h1 := key _ _ hh.1; have h2 := key _ _ hh.2
              right; right; simp [h1, h2]
            · simp at h
    · rename_i he; rw [if_neg he] at h; simp at h
  · rename_i hv
    split at h
    · exact absurd rfl (hv _ _ _ _ _ _ _ _)
    · simp at h

def lineQuery (q : Query) : Option Bytes → Query
  | none => q
  | some raw => q.set raw

/-- Effect of a good request line on the request. -/
def afterLine (r : Request) (h : Head) (path : Bytes) : Request :=
  { r with Query := lineQuery r.Query h.query, Path := path, Proto := Proto.fromBytes h.version }

theorem requestLine_head {h : Head} (ok : h.OK) {path : Bytes} (hd : UriDecode.Decode h.target = some path)
    (r : Request) : requestLine r (fullLine h) = (afterLine r h path, none) := by
  obtain ⟨⟨pr, hv⟩, hv32, hv10⟩ := ok.version
  obtain ⟨hpv, hpu⟩ := isVersion_fromBytes hv
  have hvne : h.version ≠ [] := by obtain ⟨sep, ⟨e, _⟩ | ⟨e, _⟩ | ⟨e, _⟩⟩ := hv <;> rw [e] <;> simp
  have hvlast : h.version.getLast? ≠ some 13 := by
    obtain ⟨sep, ⟨e, _⟩ | ⟨e, _⟩ | ⟨e, _⟩⟩ := hv <;> rw [e] <;> simp
  have e : fullLine h = (h.target ++ queryPart h.query) ++
      32 :: (h.version ++ if h.crlf then [13] else []) := by simp [fullLine, Head.line]
  have hcl := cutLast_append (c := 32) (a := h.target ++ queryPart h.query)
    (b := h.version ++ if h.crlf then [13] else []) (by cases h.crlf <;> simp [hv32])
  have hlast : ∃ last, (h.version ++ if h.crlf then [13] else []).getLast? = some last ∧
      (if last = CR then (h.version ++ if h.crlf then [13] else []).dropLast
        else (h.version ++ if h.crlf then [13] else [])) = h.version := by
    cases h.crlf with
    | true => exact ⟨13, by simp, by simp [CR]⟩
    | false =>
      simp only [Bool.false_eq_true, if_false, List.append_nil]
      refine ⟨h.version.getLast hvne, List.getLast?_eq_some_getLast hvne, ?_⟩
      rw [if_neg]
      intro e; apply hvlast; rw [List.getLast?_eq_some_getLast hvne, e]
  obtain ⟨last, hl1, hl2⟩ := hlast
  obtain ⟨ht1, ht2, ht3⟩ := ok.target
  have htl : h.target.length ≠ 0 := by simpa using ht1
  unfold requestLine
  rw [e, hcl]
  simp only [hl1, hl2]
  have hq : cut QUEST (h.target ++ queryPart h.query) =
      (match h.query with | none => none | some q => some (h.target, q)) := by
    cases h.query with
    | none => simp [cut_none.2 ht3, QUEST, queryPart]
    | some q => exact cut_append ht3
  rw [hq]
  cases hqu : h.query with
  | none => simp [htl, hd, hpv, hpu, afterLine, hqu, queryPart, lineQuery]
  | some q => simp [htl, hd, hpv, hpu, afterLine, hqu, lineQuery]

/-- A good request line has the form of the grammar. -/
theorem requestLine_inv {r r' : Request} {line : Bytes} (h : requestLine r line = (r', none)) (m : Method)
    (hm : m ≠ .Unknown) (h10 : 10 ∉ line) :
    ∃ hd : Head, ∃ path, hd.method = m ∧ hd.fields = [] ∧ line = fullLine hd ∧ hd.OK ∧
      UriDecode.Decode hd.target = some path ∧ r' = afterLine r hd path := by
  unfold requestLine at h
  split at h
  · simp at h
  · rename_i reqPath reqProto hc
    obtain ⟨rfl, h32⟩ := cutLast_some hc
    split at h
    · simp at h
    · rename_i last hlast
      dsimp only at h
      have hpne : reqProto ≠ [] := by intro e; simp [e] at hlast
      have hcr : ∃ (b : Bool) (v : Bytes), reqProto = v ++ (if b then [13] else []) ∧
          (if last = CR then reqProto.dropLast else reqProto) = v := by
        by_cases hl : last = CR
        · refine ⟨true, reqProto.dropLast, ?_, by simp [hl]⟩
          have := List.dropLast_concat_getLast hpne
          rw [List.getLast?_eq_some_getLast hpne] at hlast
          simp at hlast; rw [hlast, hl] at this; exact this.symm
        · exact ⟨false, reqProto, by simp, by simp [hl]⟩
      obtain ⟨b, v, rfl, hv⟩ := hcr
      rw [hv] at h
      have mk : ∀ (t : Bytes) (q : Option Bytes), reqPath = t ++ queryPart q →
          t ≠ [] → 63 ∉ t → Proto.fromBytes v ≠ Proto.Unknown → ∀ dec, UriDecode.Decode t = some dec →
          r' = afterLine r ⟨m, t, q, v, b, [], false⟩ dec →
          ∃ hd : Head, ∃ path, hd.method = m ∧ hd.fields = [] ∧
            reqPath ++ SP :: (v ++ (if b then [13] else [])) = fullLine hd ∧ hd.OK ∧
            UriDecode.Decode hd.target = some path ∧ r' = afterLine r hd path := by
        intro t q e1 e2 e3 e4 dec e5 e6
        refine ⟨⟨m, t, q, v, b, [], false⟩, dec, rfl, rfl, ?_, ?_, e5, e6⟩
        · simp [fullLine, Head.line, e1]
        · subst e1
          simp at h10 h32
          refine ⟨hm, ⟨e2, h10.1, e3⟩, ?_, ⟨⟨_, fromBytes_isVersion e4⟩, h32.1, ?_⟩, by simp⟩
          · intro q' hq'
            simp at hq'; subst hq'
            have := h10.2.1; simp [queryPart] at this; exact this
          · exact h10.2.2.2
      cases hq : cut QUEST reqPath with
      | none =>
        simp only [hq] at h
        split at h
        · simp at h
        · rename_i hne
          split at h
          · simp at h
          · rename_i dec hdec
            split at h
            · simp at h
            · rename_i hpr
              simp at h
              exact mk reqPath none (by simp [queryPart]) (by simpa using hne) (cut_none.1 hq) hpr dec hdec h.symm
      | some aq =>
        obtain ⟨t, q⟩ := aq
        obtain ⟨e1, e2⟩ := cut_some hq
        simp only [hq] at h
        split at h
        · simp at h
        · rename_i hne
          split at h
          · simp at h
          · rename_i dec hdec
            split at h
            · simp at h
            · rename_i hpr
              simp at h
              exact mk t (some q) e1 (by simpa using hne) e2 hpr dec hdec h.symm

end Indigo.Parser
