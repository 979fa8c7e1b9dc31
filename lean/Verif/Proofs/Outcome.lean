/-
Every stream of requests with clean names: accepted, refused, crashing or unfinished.
-/
import Verif.Spec.Outcome
import Verif.Proofs.Fault2

namespace Indigo.Parser
open Indigo.Spec

theorem trimLeftSp_blanks {v : Bytes} (h : ∀ c ∈ v, c = 32) : trimLeftSp v = [] := by
  induction v with
  | nil => rfl
  | cons c cs ih =>
    rw [trimLeftSp, if_pos (h c (by simp))]
    exact ih (fun d hd => h d (by simp [hd]))

/-- A faultless line in front. -/
theorem exec_next (F : Fold) {p : PState} (hf : Fresh p) {f : Field} {rest : Bytes} (ok : f.OK) (h13 : 13 ∉ f.name)
    (hl : p.keyBuf.mem.length + f.name.length ≤ (limits p).names) (hn : p.headersNumber + 1 ≤ (limits p).number)
    (hv : f.isLength = false → f.rawLength ≤ (limits p).value ∧ p.valBuf.mem.length + f.rawLength ≤ (limits p).values ∧
      (f.crlf = false → f.value ≠ [])) :
    exec F .headerKey p (f.render ++ rest) = exec F .headerKey (afterField F p f) rest ∧ Fresh (afterField F p f) ∧
      limits (afterField F p f) = limits p ∧ (afterField F p f).keyBuf.mem.length = p.keyBuf.mem.length + f.name.length ∧
      (afterField F p f).valBuf.mem.length = p.valBuf.mem.length + (if f.isLength then 0 else f.rawLength) ∧
      (afterField F p f).headersNumber = p.headersNumber + 1 := by
  have hlen : isContentLengthKey f.name = f.isLength := isLength_eq h13
  have hraw := rawValue_length f
  obtain ⟨b1, b2, b3, b4, b5, b6, b7⟩ := afterField_bufs F p f
  refine ⟨?_, fresh_afterField F f hf, by simp [limits, b2, b4, b5, b7], by simp [b1], ?_, b3⟩
  · rw [exec_field F rest hf ((fieldOK_iff h13).2 ok) ⟨hl, hn, by
      intro hk
      rw [hlen] at hk
      obtain ⟨a1, a2, a3⟩ := hv hk
      rw [hraw]
      exact ⟨a2, a1, a3⟩⟩]
  · rw [b6, hlen]
    cases f.isLength <;> simp [hraw]

theorem section_crash (F : Fold) {L : Limits} {a b n : Nat} {s : Bytes} (h : SectionCrash L a b n s) :
    ∀ p : PState, Fresh p → limits p = L → p.keyBuf.mem.length = a → p.valBuf.mem.length = b → p.headersNumber = n →
      (exec F .headerKey p s).2 = .panic := by
  induction h with
  | blank name v rest h13 h10 h58 hl hn hcl hv h1 h2 =>
    rintro p hf rfl rfl rfl rfl
    rw [exec_goto (step_key F hf h58 (name_ok h13 h10) hl hn)]
    have hk : isContentLengthKey name = false := by
      cases hk : isContentLengthKey name with
      | false => rfl
      | true => exact absurd ((special_length name h13).1 hk) hcl
    simp only [valueLabel, hk, Bool.false_eq_true, if_false]
    rw [exec_eq]
    simp only [step, stepHeaderValue]
    have h10v : 10 ∉ v := fun h => absurd (hv 10 h) (by decide)
    rw [show LF = 10 from rfl, cut_append h10v]
    simp only
    have hfr : (afterKey p name).valBuf.start = (afterKey p name).valBuf.mem.length := hf.2
    have hb : (afterKey p name).valBuf.append v =
        some { (afterKey p name).valBuf with mem := (afterKey p name).valBuf.mem ++ v } := by
      simp [Buf.append, afterKey]; simpa [limits] using h2
    rw [hb]
    have hsl : ({ (afterKey p name).valBuf with mem := (afterKey p name).valBuf.mem ++ v } : Buf).segLen = v.length := by
      simp [Buf.segLen, hfr]
    simp only [hsl]
    rw [if_neg (by simp [limits] at h1; simp [afterKey]; omega)]
    have hseg : ({ (afterKey p name).valBuf with mem := (afterKey p name).valBuf.mem ++ v } : Buf).seg = v := by
      simp [Buf.seg, hfr]
    simp only [Buf.finish, hseg, trimLeftSp_blanks hv, List.getLast?_nil]
  | next f rest ok h13 h10 hl hn hv _ ih =>
    rintro p hf rfl rfl rfl rfl
    obtain ⟨e1, e2, e3, e4, e5, e6⟩ := exec_next F (rest := rest) hf ok h13 hl hn hv
    rw [e1]
    exact ih _ e2 e3 e4 e5 e6

theorem section_open (F : Fold) {L : Limits} {a b n : Nat} {s : Bytes} (h : SectionOpen L a b n s) :
    ∀ p : PState, Fresh p → limits p = L → p.keyBuf.mem.length = a → p.valBuf.mem.length = b → p.headersNumber = n →
      (exec F .headerKey p s).2 = .pending := by
  induction h with
  | start => intro p _ _ _ _ _; rw [exec_eq]; rfl
  | cr =>
    intro p _ _ _ _ _
    have : step F .headerKey p [13] = .goto .headerValueCRLFCR p [] := by
      simp [step, stepHeaderKey, LF, CR]
    rw [exec_goto this, exec_eq]; rfl
  | name name h13 h10 h58 hl =>
    rintro p hf rfl rfl rfl rfl
    rw [exec_eq]
    simp only [step, stepHeaderKey]
    have hh := name_ok h13 h10
    have hb : p.keyBuf.append name = some { p.keyBuf with mem := p.keyBuf.mem ++ name } := by
      simp [Buf.append]; simpa [limits] using hl
    have hcut := cut_none.2 h58
    cases name with
    | nil => rfl
    | cons x xs =>
      simp at hh
      simp only [show LF = 10 from rfl, show CR = 13 from rfl, if_neg hh.2, if_neg hh.1, show COLON = 58 from rfl, hcut, hb]
  | length name ds h13 h10 h58 hl hn hcl hds =>
    rintro p hf rfl rfl rfl rfl
    rw [exec_goto (step_key F hf h58 (name_ok h13 h10) hl hn)]
    have hk : isContentLengthKey name = true := ((special_length name h13).2 hcl)
    simp only [valueLabel, hk, if_true]
    rw [exec_eq]
    have := clDigits_value (afterKey p name).contentLength ds [] hds
    rw [List.append_nil] at this
    simp only [step, stepContentLength, this, clDigits]
  | lengthCR name ds h13 h10 h58 hl hn hcl hds =>
    rintro p hf rfl rfl rfl rfl
    rw [exec_goto (step_key F hf h58 (name_ok h13 h10) hl hn)]
    have hk : isContentLengthKey name = true := ((special_length name h13).2 hcl)
    simp only [valueLabel, hk, if_true]
    rw [exec_eq]
    have hstop : ∀ n, clDigits n [13] = (n, [13]) := by
      intro n
      simp [clDigits, SP]
    simp only [step, stepContentLength, clDigits_value _ _ _ hds, hstop]
    rw [if_pos trivial]
    simp only
    rw [exec_eq]
    simp [step, stepContentLengthCR]
  | value name v h13 h10 h58 hl hn hcl hv h1 h2 =>
    rintro p hf rfl rfl rfl rfl
    rw [exec_goto (step_key F hf h58 (name_ok h13 h10) hl hn)]
    have hk : isContentLengthKey name = false := by
      cases hk : isContentLengthKey name with
      | false => rfl
      | true => exact absurd ((special_length name h13).1 hk) hcl
    simp only [valueLabel, hk, Bool.false_eq_true, if_false]
    rw [exec_eq]
    simp only [step, stepHeaderValue]
    rw [show LF = 10 from rfl, cut_none.2 hv]
    simp only
    have hfr : (afterKey p name).valBuf.start = (afterKey p name).valBuf.mem.length := hf.2
    have hb : (afterKey p name).valBuf.append v =
        some { (afterKey p name).valBuf with mem := (afterKey p name).valBuf.mem ++ v } := by
      simp [Buf.append, afterKey]; simpa [limits] using h2
    rw [hb]
    have hsl : ({ (afterKey p name).valBuf with mem := (afterKey p name).valBuf.mem ++ v } : Buf).segLen = v.length := by
      simp [Buf.segLen, hfr]
    simp only [hsl]
    rw [if_neg (by simp [limits] at h1; simp [afterKey]; omega)]
  | next f rest ok h13 h10 hl hn hv _ ih =>
    rintro p hf rfl rfl rfl rfl
    obtain ⟨e1, e2, e3, e4, e5, e6⟩ := exec_next F (rest := rest) hf ok h13 hl hn hv
    rw [e1]
    exact ih _ e2 e3 e4 e5 e6

/-- From the request line to the header section. -/
theorem exec_to_fields (F : Fold) {p : PState} (hp : Ready p) {h : Head} (ok : h.OK) (hesc : Escapable h.target)
    (hl : h.lineLength ≤ (limits p).line) (rest : Bytes) :
    ∃ q, exec F .method p (methodName h.method ++ 32 :: (h.line ++ eol h.crlf ++ rest)) = exec F .headerKey q rest ∧
      Fresh q ∧ limits q = limits p ∧ q.keyBuf.mem.length = 0 ∧ q.valBuf.mem.length = 0 ∧ q.headersNumber = 0 := by
  obtain ⟨s, hs⟩ := pct_of_escapable hesc
  have hd : UriDecode.Decode h.target = some s := by rw [UriDecode.Decode_eq]; exact hs
  have hline : (fullLine h).length ≤ p.startLine.max := by
    rw [← fullLine_length] at hl; simp [limits] at hl; omega
  rw [show h.line ++ eol h.crlf ++ rest = fullLine h ++ 10 :: rest by simp [fullLine, eol_eq]]
  rw [exec_goto (exec_method F hp ok.method _)]
  have hstep : step F .path { p with req := { p.req with Method := h.method } } (fullLine h ++ 10 :: rest) =
      .goto .headerKey (afterRequestLine p h s) rest := by
    have hb : p.startLine.append (fullLine h) = some { p.startLine with mem := fullLine h } := by
      simp [Buf.append, hp.startLine.1]; exact hline
    simp only [step, stepPath]
    rw [show LF = 10 from rfl, cut_append (fullLine_lf ok)]
    simp only [hb, Buf.finish, Buf.seg, hp.startLine.2, List.drop_zero, finishPath, requestLine_head ok hd]
    rfl
  rw [exec_goto hstep]
  refine ⟨_, rfl, ?_, rfl, ?_, ?_, ?_⟩
  · simp [Fresh, afterRequestLine, hp.keyBuf.1, hp.keyBuf.2, hp.valBuf.1, hp.valBuf.2]
  · simp [afterRequestLine, hp.keyBuf.1]
  · simp [afterRequestLine, hp.valBuf.1]
  · exact hp.number

theorem head_crash (F : Fold) {p : PState} (hp : Ready p) {s : Bytes} (h : HeadCrash (limits p) s) :
    (exec F .method p s).2 = .panic := by
  cases h with
  | line k line rest hk h10 hl =>
    rw [exec_goto (exec_method F hp hk _), exec_eq]
    have h10' : 10 ∉ line ++ [32] := by simp [h10]
    rw [show line ++ 32 :: 10 :: rest = (line ++ [32]) ++ 10 :: rest by simp]
    simp only [step, stepPath]
    rw [show LF = 10 from rfl, cut_append h10']
    have hb : p.startLine.append (line ++ [32]) = some { p.startLine with mem := line ++ [32] } := by
      simp [Buf.append, hp.startLine.1]; simp [limits] at hl; omega
    simp only [hb, Buf.finish, Buf.seg, hp.startLine.2, List.drop_zero, finishPath, requestLine]
    rw [show SP = 32 from rfl, show line ++ [32] = line ++ 32 :: [] from rfl, cutLast_append (by simp)]
    rfl
  | fields h rest ok hesc hl hs =>
    obtain ⟨q, e, e1, e2, e3, e4, e5⟩ := exec_to_fields F hp ok hesc hl rest
    rw [e]
    exact section_crash F hs q e1 e2 e3 e4 e5

theorem head_open (F : Fold) {p : PState} (hp : Ready p) {s : Bytes} (h : HeadOpen (limits p) s) :
    (exec F .method p s).2 = .pending := by
  cases h with
  | method m h32 hl =>
    rw [exec_eq]
    simp only [step, stepMethod]
    have hb : p.startLine.append s = some { p.startLine with mem := s } := by
      simp [Buf.append, hp.startLine.1]; exact hl
    rw [show SP = 32 from rfl, cut_none.2 h32]
    simp only [hb]
  | line k line hk h10 hl =>
    rw [exec_goto (exec_method F hp hk _), exec_eq]
    simp only [step, stepPath]
    have hb : p.startLine.append line = some { p.startLine with mem := line } := by
      simp [Buf.append, hp.startLine.1]; simp [limits] at hl; omega
    rw [show LF = 10 from rfl, cut_none.2 h10]
    simp only [hb]
  | fields h rest ok hesc hl hs =>
    obtain ⟨q, e, e1, e2, e3, e4, e5⟩ := exec_to_fields F hp ok hesc hl rest
    rw [e]
    exact section_open F hs q e1 e2 e3 e4 e5

theorem head_accept (F : Fold) {p : PState} (hp : Ready p) {s : Bytes} (h : Acceptable (limits p) s) :
    ∃ ex, (exec F .method p s).2 = .completed ex := by
  obtain ⟨h, extra, rfl, ok, clean, nb, fits, esc⟩ := h
  obtain ⟨path, hpath⟩ := pct_of_escapable esc
  have hd : UriDecode.Decode h.target = some path := by rw [UriDecode.Decode_eq]; exact hpath
  have hcr : ∀ f ∈ h.fields, 13 ∉ f.name := fun f hf => (clean f hf).1
  refine ⟨extra, ?_⟩
  rw [exec_head F hp ok hd (fun f hf => (fieldOK_iff (hcr f hf)).2 (ok.fields f hf))
    (by have := fits.line; rw [← fullLine_length] at this; simp [limits] at this; omega)
    ((fits_iff F hp clean path).2 ⟨fits.names, fits.values, fits.number, fits.value, nb⟩) extra]

/-! ### Classification -/

/-- The text behind the colon, as a field. -/
theorem field_of_raw' (name raw : Bytes) (h58 : 58 ∉ name) (h13 : 13 ∉ name) (h10 : 10 ∉ name) (hlf : 10 ∉ raw)
    (hlen : lower name = b!"content-length" → ∃ ds cr, raw = ds ++ cr ∧ (cr = [] ∨ cr = [13]) ∧
      ∀ c ∈ ds, c = 32 ∨ isDigit c = true) :
    ∃ f : Field, f.name = name ∧ f.OK ∧ f.rawLength = raw.length ∧ (f.crlf = false → f.value = [] → ∀ c ∈ raw, c = 32) ∧
      ∀ rest, f.render ++ rest = name ++ 58 :: (raw ++ 10 :: rest) := by
  obtain ⟨k, w, hw, hw1, _⟩ := blanks_split raw
  have hwlf : 10 ∉ w := fun h => hlf (by rw [hw]; simp [h])
  by_cases hl : w.getLast? = some 13
  · obtain ⟨u, rfl⟩ : ∃ u, w = u ++ [13] := by
      have hwne : w ≠ [] := by rintro rfl; simp at hl
      refine ⟨w.dropLast, ?_⟩
      have := List.dropLast_concat_getLast hwne
      rw [List.getLast?_eq_some_getLast hwne] at hl
      simp at hl
      rw [hl] at this
      exact this.symm
    refine ⟨⟨name, k, u, true⟩, rfl, ⟨h58, name_ok h13 h10, fun h => hwlf (by simp [h]), ?_, nofun, ?_⟩, ?_, nofun, ?_⟩
    · cases u with
      | nil => simp
      | cons x xs => simpa using hw1
    · intro hn c hc
      have hn : lower name = b!"content-length" := by simpa [Field.isLength, Field.named] using hn
      obtain ⟨ds, cr, e, h1, h2⟩ := hlen hn
      rcases h1 with rfl | rfl
      · rw [List.append_nil] at e
        apply h2
        rw [← e, hw]; simp only [List.mem_append]; exact .inr (.inl hc)
      · rw [hw, ← List.append_assoc] at e
        have := (List.append_inj' e rfl).1
        apply h2
        rw [← this]; simp only [List.mem_append]; exact .inr hc
    · rw [hw]; simp [Field.rawLength]; omega
    · intro rest
      rw [render_append, hw]
      simp [eol]
  · refine ⟨⟨name, k, w, false⟩, rfl, ⟨h58, name_ok h13 h10, hwlf, hw1, fun _ => hl, ?_⟩, ?_, ?_, ?_⟩
    · intro hn c hc
      have hn : lower name = b!"content-length" := by simpa [Field.isLength, Field.named] using hn
      obtain ⟨ds, cr, e, h1, h2⟩ := hlen hn
      have hcr : cr = [] := by
        rcases h1 with h | rfl
        · exact h
        · exfalso
          have h3 : raw.getLast? = some 13 := by rw [e]; simp
          rw [hw, List.getLast?_append] at h3
          have hwne : w ≠ [] := by rintro rfl; cases hc
          rw [List.getLast?_eq_some_getLast hwne] at h3 hl
          simp at h3 hl
          exact hl h3
      subst hcr
      apply h2
      rw [List.append_nil] at e
      rw [← e, hw]; simp only [List.mem_append]; exact .inr hc
    · rw [hw]; simp [Field.rawLength]
    · intro _ hv c hc
      simp only at hv
      subst hv
      rw [hw, List.append_nil] at hc
      exact (List.mem_replicate.1 hc).2
    · intro rest
      rw [render_append, hw]
      simp [eol]

/-- What a header section may be. -/
def SectionClass (L : Limits) (a b n : Nat) (s : Bytes) : Prop :=
  (∃ fs c extra, s = fs.flatMap Field.render ++ (eol c ++ extra) ∧ SectionFits L a b n fs) ∨
  (∃ e, SectionFault L a b n s e) ∨ SectionCrash L a b n s ∨ SectionOpen L a b n s

theorem section_class {s : Bytes} (h : CleanFields s) : ∀ (L : Limits) (a b n : Nat), a ≤ L.names → b ≤ L.values →
    n ≤ L.number → SectionClass L a b n s := by
  induction h with
  | none => intro L a b n _ _ _; exact .inr (.inr (.inr .start))
  | endLF rest =>
    intro L a b n ha hb hn
    exact .inl ⟨[], false, rest, rfl, by simp, by simp, by simp, by simpa, by simpa, by simpa, by simp⟩
  | endCR rest =>
    intro L a b n ha hb hn
    cases rest with
    | nil => exact .inr (.inr (.inr .cr))
    | cons c rest =>
      by_cases hc : c = 10
      · subst hc
        exact .inl ⟨[], true, rest, rfl, by simp, by simp, by simp, by simpa, by simpa, by simpa, by simp⟩
      · exact .inr (.inl ⟨_, .noEnd c rest hc⟩)
  | name name h13 h10 h58 =>
    intro L a b n ha hb hn
    by_cases hl : a + name.length ≤ L.names
    · exact .inr (.inr (.inr (.name name h13 h10 h58 hl)))
    · refine .inr (.inl ⟨_, .namesOpen name ?_ h13 h10 h58 (by omega)⟩)
      rintro rfl; simp at hl; omega
  | value name v h13 h10 h58 hv =>
    intro L a b n ha hb hn
    by_cases hnames : a + name.length ≤ L.names
    case neg => exact .inr (.inl ⟨_, .names name _ h13 h10 h58 (by omega)⟩)
    by_cases hnumber : n + 1 ≤ L.number
    case neg => exact .inr (.inl ⟨_, .number name _ h13 h10 h58 hnames (by omega)⟩)
    by_cases hcl : lower name = b!"content-length"
    · rcases first_bad v with hg | ⟨ds, c, r, rfl, hds, hc1, hc2⟩
      · exact .inr (.inr (.inr (.length name v h13 h10 h58 hnames hnumber hcl hg)))
      · by_cases hc13 : c = 13
        · subst hc13
          cases r with
          | nil => exact .inr (.inr (.inr (.lengthCR name ds h13 h10 h58 hnames hnumber hcl hds)))
          | cons x r =>
            refine .inr (.inl ⟨_, .lengthEnd name ds x r h13 h10 h58 hnames hnumber hcl hds ?_⟩)
            rintro rfl; exact hv (by simp)
        · refine .inr (.inl ⟨_, .length name ds c r h13 h10 h58 hnames hnumber hcl hds hc1 hc2 hc13 ?_⟩)
          rintro rfl; exact hv (by simp)
    · by_cases hbig : L.value < v.length ∨ L.values < b + v.length
      · exact .inr (.inl ⟨_, .valueOpen name v h13 h10 h58 hnames hnumber hcl hv hbig⟩)
      · exact .inr (.inr (.inr (.value name v h13 h10 h58 hnames hnumber hcl hv (by omega) (by omega))))
  | field name v rest h13 h10 h58 hv _ ih =>
    intro L a b n ha hb hn
    by_cases hnames : a + name.length ≤ L.names
    case neg => exact .inr (.inl ⟨_, .names name _ h13 h10 h58 (by omega)⟩)
    by_cases hnumber : n + 1 ≤ L.number
    case neg => exact .inr (.inl ⟨_, .number name _ h13 h10 h58 hnames (by omega)⟩)
    have go : ∀ f : Field, f.name = name → f.OK → f.rawLength = v.length →
        (∀ rest, f.render ++ rest = name ++ 58 :: (v ++ 10 :: rest)) →
        (f.isLength = false → f.rawLength ≤ L.value ∧ b + f.rawLength ≤ L.values ∧ (f.crlf = false → f.value ≠ [])) →
        SectionClass L a b n (name ++ 58 :: (v ++ 10 :: rest)) := by
      intro f e1 e2 e3 e5 e6
      have hb' : b + (if f.isLength then 0 else f.rawLength) ≤ L.values := by
        cases hi : f.isLength with
        | true => simpa using hb
        | false => exact (e6 hi).2.1
      rw [← e5]
      have k13 : 13 ∉ f.name := by rw [e1]; exact h13
      have k10 : 10 ∉ f.name := by rw [e1]; exact h10
      have kn : a + f.name.length ≤ L.names := by rw [e1]; exact hnames
      rcases ih L (a + f.name.length) (b + if f.isLength then 0 else f.rawLength) (n + 1) kn hb' hnumber with
        ⟨fs, c, extra, hs, hfit⟩ | ⟨e, he⟩ | hc | ho
      · left
        refine ⟨f :: fs, c, extra, ?_, ?_, ?_, ?_, ?_, ?_, ?_, ?_⟩
        · rw [hs]; simp
        · intro g hg; simp at hg; rcases hg with rfl | hg
          · exact e2
          · exact hfit.ok g hg
        · intro g hg; simp at hg; rcases hg with rfl | hg
          · exact ⟨k13, k10⟩
          · exact hfit.clean g hg
        · intro g hg; simp at hg; rcases hg with rfl | hg
          · exact fun hi => (e6 hi).2.2
          · exact hfit.bare g hg
        · have := hfit.names; simp; omega
        · have := hfit.values
          cases hi : f.isLength <;> simp [hi] at this ⊢ <;> omega
        · have := hfit.number; simp; omega
        · intro g hg; simp at hg; rcases hg with rfl | hg
          · exact fun hi => (e6 hi).1
          · exact hfit.value g hg
      · exact .inr (.inl ⟨e, .next f rest e e2 k13 k10 kn hnumber e6 he⟩)
      · exact .inr (.inr (.inl (.next f rest e2 k13 k10 kn hnumber e6 hc)))
      · exact .inr (.inr (.inr (.next f rest e2 k13 k10 kn hnumber e6 ho)))
    by_cases hcl : lower name = b!"content-length"
    · have hgood : (∃ ds cr, v = ds ++ cr ∧ (cr = [] ∨ cr = [13]) ∧ ∀ c ∈ ds, c = 32 ∨ isDigit c = true) →
          SectionClass L a b n (name ++ 58 :: (v ++ 10 :: rest)) := by
        intro hg
        obtain ⟨f, e1, e2, e3, e4, e5⟩ := field_of_raw' name v h58 h13 h10 hv (fun _ => hg)
        refine go f e1 e2 e3 e5 ?_
        intro hi
        simp [Field.isLength, Field.named, e1, hcl] at hi
      rcases first_bad v with hg | ⟨ds, c, r, hraw, hds, hc1, hc2⟩
      · exact hgood ⟨v, [], by simp, .inl rfl, hg⟩
      · have hc10 : c ≠ 10 := by
          rintro rfl
          exact hv (by rw [hraw]; simp)
        by_cases hc13 : c = 13
        · subst hc13
          cases r with
          | nil => exact hgood ⟨ds, [13], hraw, .inr rfl, hds⟩
          | cons x r =>
            have hx : x ≠ 10 := by
              rintro rfl
              exact hv (by rw [hraw]; simp)
            refine .inr (.inl ⟨Status.ErrBadRequest, ?_⟩)
            rw [hraw]
            simp only [List.append_assoc, List.cons_append]
            exact .lengthEnd name ds x _ h13 h10 h58 hnames hnumber hcl hds hx
        · refine .inr (.inl ⟨Status.ErrBadRequest, ?_⟩)
          rw [hraw]
          simp only [List.append_assoc, List.cons_append]
          exact .length name ds c _ h13 h10 h58 hnames hnumber hcl hds hc1 hc2 hc13 hc10
    · by_cases hbig : L.value < v.length ∨ L.values < b + v.length
      · exact .inr (.inl ⟨_, .value name v rest h13 h10 h58 hnames hnumber hcl hv hbig⟩)
      · by_cases hblank : ∀ c ∈ v, c = 32
        · exact .inr (.inr (.inl (.blank name v rest h13 h10 h58 hnames hnumber hcl hblank (by omega) (by omega))))
        · obtain ⟨f, e1, e2, e3, e4, e5⟩ := field_of_raw' name v h58 h13 h10 hv (fun h => absurd h hcl)
          refine go f e1 e2 e3 e5 ?_
          intro _
          rw [e3]
          exact ⟨by omega, by omega, fun h1 h2 => hblank (e4 h1 h2)⟩

/-- Every stream with clean names and a request line which is not too long. -/
theorem stream_class {L : Limits} {s : Bytes} (fits : RequestLineFits L.line s) (clean : CleanStream s) :
    Acceptable L s ∨ (∃ e, HeadFault L s e) ∨ HeadCrash L s ∨ HeadOpen L s := by
  cases hc : cut 32 s with
  | none => exact .inr (.inr (.inr (.method s (cut_none.1 hc) (fits.1 (cut_none.1 hc)))))
  | some x =>
    obtain ⟨m, r⟩ := x
    obtain ⟨rfl, h32⟩ := cut_some hc
    by_cases hm0 : m = []
    · subst hm0; exact .inr (.inl ⟨_, .noMethod r⟩)
    by_cases hm : Method.parse m = .Unknown
    · refine .inr (.inl ⟨_, .unknownMethod m r h32 hm0 ?_⟩)
      rintro k rfl
      by_cases hk : k = .Unknown
      · subst hk; exact hm0 rfl
      · exact hk ((methodName_facts k hk).2.2.symm.trans hm)
    have hmk := (Props.C15_method_recognised_iff m _ hm).1 rfl
    generalize Method.parse m = k at hm hmk
    subst hmk
    cases hc2 : cut 10 r with
    | none =>
      have h10 := cut_none.1 hc2
      exact .inr (.inr (.inr (.line k r hm h10 (fits.2.1 _ _ rfl h32 h10))))
    | some y =>
      obtain ⟨line, rest⟩ := y
      obtain ⟨rfl, h10⟩ := cut_some hc2
      have hlen := fits.2.2 _ _ _ rfl h32 h10
      have hcf := clean _ _ _ rfl h32 h10
      by_cases hlast : line.getLast? = some 32
      · obtain ⟨u, rfl⟩ : ∃ u, line = u ++ [32] := by
          have hne : line ≠ [] := by rintro rfl; simp at hlast
          refine ⟨line.dropLast, ?_⟩
          have := List.dropLast_concat_getLast hne
          rw [List.getLast?_eq_some_getLast hne] at hlast
          simp at hlast
          rw [hlast] at this
          exact this.symm
        refine .inr (.inr (.inl ?_))
        rw [show (u ++ [32]) ++ 10 :: rest = u ++ 32 :: 10 :: rest by simp]
        exact .line k u rest hm (fun h => h10 (by simp [h])) (by simp at hlen; omega)
      rcases line_or_fault (m := methodName k) h10 hlast with ⟨hd, hk, rfl, ok, hfields, hesc⟩ | ⟨e, he⟩
      case inr => exact .inr (.inl ⟨e, .line _ line rest e h32 h10 hlen he⟩)
      rw [hk] at hlen ⊢
      have hshape : ∀ rest, fullLine hd ++ 10 :: rest = hd.line ++ eol hd.crlf ++ rest := by
        intro rest; simp [fullLine, eol_eq]
      rw [fullLine_length] at hlen
      rw [hshape]
      rcases section_class hcf L 0 0 0 (Nat.zero_le _) (Nat.zero_le _) (Nat.zero_le _) with
        ⟨fs, c, extra, rfl, hfit⟩ | ⟨e, he⟩ | hcr | ho
      · left
        refine ⟨{ hd with fields := fs, lastCrlf := c }, extra, ?_, ⟨ok.method, ok.target, ok.query, ok.version, hfit.ok⟩,
          hfit.clean, hfit.bare, ?_, hesc⟩
        · simp [Head.render, Head.line]
        · exact ⟨hlen, by simpa using hfit.names, by simpa using hfit.values, by simpa using hfit.number, hfit.value⟩
      · exact .inr (.inl ⟨e, .fields hd rest e ok hesc hlen he⟩)
      · exact .inr (.inr (.inl (.fields hd rest ok hesc hlen hcr)))
      · exact .inr (.inr (.inr (.fields hd rest ok hesc hlen ho)))

/-- What the result of feeding a stream means. -/
theorem feed_outcome (F : Fold) (p : PState) (hp : Ready p) (segs : List Bytes)
    (fits : RequestLineFits p.startLine.max segs.flatten) (clean : CleanStream segs.flatten) :
    ((∃ x, (feed F p segs).2.1 = .completed x) ↔ Acceptable (limits p) segs.flatten) ∧
    (∀ e, (feed F p segs).2.1 = .error e ↔ HeadFault (limits p) segs.flatten e) ∧
    ((feed F p segs).2.1 = .panic ↔ HeadCrash (limits p) segs.flatten) ∧
    ((feed F p segs).2.1 = .pending ↔ HeadOpen (limits p) segs.flatten) := by
  have hfeed := feed_eq F segs p (hp.cond fits clean)
  rw [hp.state] at hfeed
  have h1 := head_accept F hp (s := segs.flatten)
  have h2 := fun e => head_fault F hp (s := segs.flatten) (e := e)
  have h3 := head_crash F hp (s := segs.flatten)
  have h4 := head_open F hp (s := segs.flatten)
  have hcl := stream_class (L := limits p) fits clean
  rcases hf : feed F p segs with ⟨p', r, rest⟩
  rw [hf] at hfeed
  generalize exec F .method p segs.flatten = w at hfeed h1 h2 h3 h4
  obtain ⟨w1, w2⟩ := w
  dsimp only at h1 h2 h3 h4 ⊢
  cases r with
  | completed ex =>
    simp only [FeedRel, Prod.mk.injEq] at hfeed
    obtain ⟨_, rfl⟩ := hfeed
    have n2 : ∀ e, ¬ HeadFault (limits p) segs.flatten e := fun e he => nomatch (h2 e he)
    have n3 : ¬ HeadCrash (limits p) segs.flatten := fun he => nomatch (h3 he)
    have n4 : ¬ HeadOpen (limits p) segs.flatten := fun he => nomatch (h4 he)
    refine ⟨⟨fun _ => ?_, fun _ => ⟨_, rfl⟩⟩, fun e => ⟨nofun, fun h => absurd h (n2 e)⟩, ⟨nofun, fun h => absurd h n3⟩,
      ⟨nofun, fun h => absurd h n4⟩⟩
    rcases hcl with h | ⟨e, h⟩ | h | h
    · exact h
    · exact absurd h (n2 e)
    · exact absurd h n3
    · exact absurd h n4
  | pending =>
    have hw : w2 = .pending := hfeed.1
    subst hw
    have n1 : ¬ Acceptable (limits p) segs.flatten := fun he => nomatch (h1 he)
    have n2 : ∀ e, ¬ HeadFault (limits p) segs.flatten e := fun e he => nomatch (h2 e he)
    have n3 : ¬ HeadCrash (limits p) segs.flatten := fun he => nomatch (h3 he)
    refine ⟨⟨nofun, fun h => absurd h n1⟩, fun e => ⟨nofun, fun h => absurd h (n2 e)⟩, ⟨nofun, fun h => absurd h n3⟩,
      ⟨fun _ => ?_, fun _ => rfl⟩⟩
    rcases hcl with h | ⟨e, h⟩ | h | h
    · exact absurd h n1
    · exact absurd h (n2 e)
    · exact absurd h n3
    · exact h
  | panic =>
    have hw : w2 = .panic := hfeed.1
    subst hw
    have n1 : ¬ Acceptable (limits p) segs.flatten := fun he => nomatch (h1 he)
    have n2 : ∀ e, ¬ HeadFault (limits p) segs.flatten e := fun e he => nomatch (h2 e he)
    have n4 : ¬ HeadOpen (limits p) segs.flatten := fun he => nomatch (h4 he)
    refine ⟨⟨nofun, fun h => absurd h n1⟩, fun e => ⟨nofun, fun h => absurd h (n2 e)⟩, ⟨fun _ => ?_, fun _ => rfl⟩,
      ⟨nofun, fun h => absurd h n4⟩⟩
    rcases hcl with h | ⟨e, h⟩ | h | h
    · exact absurd h n1
    · exact absurd h (n2 e)
    · exact h
    · exact absurd h n4
  | error e' =>
    have hw : w2 = .error e' := hfeed.1
    subst hw
    have n1 : ¬ Acceptable (limits p) segs.flatten := fun he => nomatch (h1 he)
    have n3 : ¬ HeadCrash (limits p) segs.flatten := fun he => nomatch (h3 he)
    have n4 : ¬ HeadOpen (limits p) segs.flatten := fun he => nomatch (h4 he)
    refine ⟨⟨nofun, fun h => absurd h n1⟩, fun e => ⟨fun h => ?_, fun h => h2 e h⟩, ⟨nofun, fun h => absurd h n3⟩,
      ⟨nofun, fun h => absurd h n4⟩⟩
    rcases hcl with g | ⟨e1, g⟩ | g | g
    · exact absurd g n1
    · have := h2 e1 g
      cases this; cases h; exact g
    · exact absurd g n3
    · exact absurd g n4

end Indigo.Parser
