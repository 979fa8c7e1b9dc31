/-
Completeness and soundness of the parser for whole heads.
-/
import Verif.Proofs.ParserHead2
import Verif.Proofs.ParserSplit2
import Verif.Props.Tokens

namespace Indigo.Parser
open Indigo.Spec

/-- State after the request line. -/
def afterRequestLine (p : PState) (h : Head) (path : Bytes) : PState :=
  { p with req := afterLine { p.req with Method := h.method } h path
           startLine := { p.startLine with mem := fullLine h, start := (fullLine h).length } }

theorem methodName_facts (m : Method) (hm : m ≠ .Unknown) :
    32 ∉ methodName m ∧ methodName m ≠ [] ∧ Method.parse (methodName m) = m := by
  cases m <;> first | (exact absurd rfl hm) | decide

theorem render_eq (h : Head) (D : Bytes) : h.render ++ D =
    methodName h.method ++ 32 :: (fullLine h ++ 10 :: (h.fields.flatMap Field.render ++ (eol h.lastCrlf ++ D))) := by
  simp [Head.render, fullLine, eol_eq]

theorem fullLine_lf {h : Head} (ok : h.OK) : 10 ∉ fullLine h := by
  obtain ⟨_, ht, _⟩ := ok.target
  obtain ⟨_, _, hv⟩ := ok.version
  have hq := ok.query
  unfold fullLine Head.line
  cases hqu : h.query with
  | none => cases h.crlf <;> simp [queryPart, ht, hv]
  | some q => have := hq q hqu; cases h.crlf <;> simp [queryPart, ht, hv, this]

theorem fullLine_length (h : Head) : (methodName h.method).length + (fullLine h).length = h.lineLength := by
  unfold fullLine Head.lineLength
  cases h.crlf <;> simp <;> omega

theorem exec_method (F : Fold) {p : PState} (hp : Ready p) {m : Method} (hm : m ≠ .Unknown) (D : Bytes) :
    step F .method p (methodName m ++ 32 :: D) = .goto .path { p with req := { p.req with Method := m } } D := by
  obtain ⟨h1, h2, h3⟩ := methodName_facts m hm
  have hs : p.startLine.segLen = 0 := by simp [Buf.segLen, hp.startLine.1]
  simp only [step, stepMethod]
  rw [show SP = 32 from rfl, cut_append h1]
  simp only [takeMethod, hs, if_true, finishMethod]
  rw [if_neg (by simpa using h2)]
  simp only [h3]
  rw [if_neg hm]

theorem exec_head (F : Fold) {p : PState} (hp : Ready p) {h : Head} (ok : h.OK) {path : Bytes}
    (hd : UriDecode.Decode h.target = some path) (hf : ∀ f ∈ h.fields, FieldOK f)
    (hline : (fullLine h).length ≤ p.startLine.max) (fits : FieldsFit F (afterRequestLine p h path) h.fields)
    (D : Bytes) :
    exec F .method p (h.render ++ D) =
      (cleanup (h.fields.foldl (afterField F) (afterRequestLine p h path)), .completed D) := by
  rw [render_eq, exec_goto (exec_method F hp ok.method _)]
  have hstep : step F .path { p with req := { p.req with Method := h.method } }
      (fullLine h ++ 10 :: (h.fields.flatMap Field.render ++ (eol h.lastCrlf ++ D))) =
      .goto .headerKey (afterRequestLine p h path) (h.fields.flatMap Field.render ++ (eol h.lastCrlf ++ D)) := by
    have hb : p.startLine.append (fullLine h) = some { p.startLine with mem := fullLine h } := by
      simp [Buf.append, hp.startLine.1]; exact hline
    simp only [step, stepPath]
    rw [show LF = 10 from rfl, cut_append (fullLine_lf ok)]
    simp only [hb, Buf.finish, Buf.seg, hp.startLine.2, List.drop_zero, finishPath, requestLine_head ok hd]
    rfl
  rw [exec_goto hstep, exec_fields F _ _ _ ?_ hf fits]
  simp [Fresh, afterRequestLine, hp.keyBuf.1, hp.keyBuf.2, hp.valBuf.1, hp.valBuf.2]

theorem exec_head_inv (F : Fold) {p : PState} (hp : Ready p) {s : Bytes} {p' : PState} {ex : Bytes}
    (h : exec F .method p s = (p', .completed ex)) :
    ∃ (hd : Head) (path : Bytes), s = hd.render ++ ex ∧
      (hd.method ≠ .Unknown ∧ { hd with fields := [] : Head }.OK) ∧ (∀ f ∈ hd.fields, FieldOK f) ∧
      UriDecode.Decode hd.target = some path ∧ (fullLine hd).length ≤ p.startLine.max ∧
      FieldsFit F (afterRequestLine p hd path) hd.fields ∧
      p' = cleanup (hd.fields.foldl (afterField F) (afterRequestLine p hd path)) := by
  have hs : p.startLine.segLen = 0 := by simp [Buf.segLen, hp.startLine.1]
  rw [exec_eq] at h
  simp only [step, stepMethod] at h
  cases hc : cut SP s with
  | none =>
    simp only [hc] at h
    cases hb : p.startLine.append s <;> simp [hb] at h
  | some mr =>
    obtain ⟨mname, rest⟩ := mr
    obtain ⟨rfl, hm32⟩ := cut_some hc
    simp only [hc, takeMethod, hs, if_true, finishMethod] at h
    by_cases hm0 : mname.length = 0
    · simp [hm0] at h
    rw [if_neg hm0] at h
    by_cases hmu : Method.parse mname = .Unknown
    · simp [hmu] at h
    rw [if_neg hmu] at h
    simp only at h
    have hmn : mname = methodName (Method.parse mname) := (Props.C15_method_recognised_iff mname _ hmu).1 rfl
    rw [exec_eq] at h
    simp only [step, stepPath] at h
    cases hc2 : cut LF rest with
    | none =>
      simp only [hc2] at h
      cases hb : p.startLine.append rest <;> simp [hb] at h
    | some lr =>
      obtain ⟨line, r2⟩ := lr
      obtain ⟨rfl, hl10⟩ := cut_some hc2
      simp only [hc2] at h
      cases hb : p.startLine.append line with
      | none => simp [hb] at h
      | some sl =>
        obtain ⟨hlen, rfl⟩ := Buf.append_inv hb
        simp only [hb, Buf.finish, Buf.seg, hp.startLine.1, hp.startLine.2, List.nil_append, List.drop_zero,
          finishPath] at h
        cases hrl : requestLine { p.req with Method := Method.parse mname } line with
        | mk r' out =>
        simp only [hrl] at h
        cases out with
        | some o =>
          simp only at h
          simp at h
          obtain ⟨_, rfl⟩ := h
          have := requestLine_out { p.req with Method := Method.parse mname } line
          rw [hrl] at this; simp at this
        | none =>
          simp only at h
          obtain ⟨hd, path, hd1, hd2, rfl, hok, hdec, rfl⟩ := requestLine_inv hrl _ hmu hl10
          have hfr : Fresh { p with
              startLine := { p.startLine with mem := fullLine hd, start := (fullLine hd).length },
              req := afterLine { p.req with Method := Method.parse mname } hd path } := by
            simp [Fresh, hp.keyBuf.1, hp.keyBuf.2, hp.valBuf.1, hp.valBuf.2]
          obtain ⟨fs, c, e1, e2, e3, e4⟩ := exec_fields_inv F _ _ _ (Nat.le_refl _) hfr _ _ h
          rw [hp.startLine.1] at hlen
          refine ⟨{ hd with fields := fs, lastCrlf := c }, path, ?_, ⟨?_, ?_⟩, e2, hdec, ?_, ?_, ?_⟩
          · rw [render_eq]
            simp only [hd1]
            rw [← hmn, ← e1]
            rfl
          · simp only [hd1]; exact hmu
          · constructor
            · exact hok.method
            · exact hok.target
            · exact hok.query
            · exact hok.version
            · simp
          · simpa [fullLine, Head.line] using hlen
          · simp only [afterRequestLine, hd1]; exact e3
          · simp only [afterRequestLine, hd1]; exact e4

/-! ### Clean names -/

theorem isLength_eq {f : Field} (h : 13 ∉ f.name) : isContentLengthKey f.name = f.isLength := by
  rw [isContentLengthKey_eq, named_eq_lower (by decide) h]; rfl

theorem fieldOK_iff {f : Field} (h : 13 ∉ f.name) : FieldOK f ↔ f.OK := by
  constructor
  · rintro ⟨a, b, c, d, e, g⟩; rw [isLength_eq h] at g; exact ⟨a, b, c, d, e, g⟩
  · rintro ⟨a, b, c, d, e, g⟩; rw [← isLength_eq h] at g; exact ⟨a, b, c, d, e, g⟩

theorem rawValue_length (f : Field) : (rawValue f).length = f.rawLength := by
  unfold rawValue Field.rawLength; cases f.crlf <;> simp <;> omega

theorem lastOf_eq {h : Head} (hc : ∀ f ∈ h.fields, 13 ∉ f.name) (n : Bytes)
    (hn : ∀ t ∈ n, (97 ≤ t ∧ t ≤ 122) ∨ t = 45) : lastOf n h.fields = h.last n := by
  unfold lastOf Head.last
  congr 2
  apply List.filter_congr
  intro f hf
  rw [named_eq_lower hn (hc f hf)]; rfl

theorem filter_length_eq {h : Head} (hc : ∀ f ∈ h.fields, 13 ∉ f.name) :
    h.fields.filter (fun f => !isContentLengthKey f.name) = h.fields.filter (fun f => !f.isLength) := by
  apply List.filter_congr
  intro f hf; rw [isLength_eq (hc f hf)]

theorem digitsOf_eq {h : Head} (hc : ∀ f ∈ h.fields, 13 ∉ f.name) : digitsOf h.fields = h.lengthDigits := by
  unfold digitsOf Head.lengthDigits
  congr 1
  apply List.filter_congr
  intro f hf; exact isLength_eq (hc f hf)

/-- The limits of a parser. -/
def limits (p : PState) : Limits :=
  { line := p.startLine.max, names := p.keyBuf.max, values := p.valBuf.max, number := p.cfg.maxNumber
    value := p.cfg.maxValueLength }

theorem fits_iff (F : Fold) {p : PState} (hp : Ready p) {h : Head} (hc : h.CleanNames) (path : Bytes) :
    FieldsFit F (afterRequestLine p h path) h.fields ↔
      ((h.fields.map (fun f => f.name.length)).sum ≤ p.keyBuf.max ∧
       ((h.fields.filter (fun f => !f.isLength)).map Field.rawLength).sum ≤ p.valBuf.max ∧
       h.fields.length ≤ p.cfg.maxNumber ∧
       (∀ f ∈ h.fields, f.isLength = false → f.rawLength ≤ p.cfg.maxValueLength) ∧ h.NoBareEmpty) := by
  have hcr : ∀ f ∈ h.fields, 13 ∉ f.name := fun f hf => (hc f hf).1
  rw [fieldsFit_iff]
  · have hsum : ((h.fields.filter (fun f => !isContentLengthKey f.name)).map (fun f => (rawValue f).length)) =
        ((h.fields.filter (fun f => !f.isLength)).map Field.rawLength) := by
      rw [filter_length_eq hcr]
      apply List.map_congr_left
      intro f _; exact rawValue_length f
    constructor
    · rintro ⟨a, b, c, d⟩
      simp only [afterRequestLine, hp.keyBuf.1, hp.valBuf.1, hp.number, List.length_nil, Nat.zero_add, hsum] at a b c d
      refine ⟨a, c, b, ?_, ?_⟩
      · intro f hf hl
        rw [← rawValue_length]; exact (d f hf (by rw [isLength_eq (hcr f hf)]; exact hl)).1
      · intro f hf hl
        exact (d f hf (by rw [isLength_eq (hcr f hf)]; exact hl)).2
    · rintro ⟨a, b, c, d, e⟩
      refine ⟨?_, ?_, ?_, ?_⟩
      · simpa only [afterRequestLine, hp.keyBuf.1, List.length_nil, Nat.zero_add] using a
      · simpa only [afterRequestLine, hp.number, Nat.zero_add] using c
      · simpa only [afterRequestLine, hp.valBuf.1, List.length_nil, Nat.zero_add, hsum] using b
      · intro f hf hl
        rw [isLength_eq (hcr f hf)] at hl
        rw [rawValue_length]
        exact ⟨d f hf hl, e f hf hl⟩
  · simp [afterRequestLine, hp.keyBuf.1]
  · simp [afterRequestLine, hp.number]
  · simp [afterRequestLine, hp.valBuf.1]

theorem carries_head (F : Fold) {p : PState} (hp : Ready p) (hr : Cleared p.req) {h : Head} (hc : h.CleanNames)
    {path : Bytes} (hd : UriDecode.Decode h.target = some path) (hv : ∃ pr, IsVersion h.version pr) :
    Carries F p.cfg.maxEncodingTokens h
      (cleanup (h.fields.foldl (afterField F) (afterRequestLine p h path))).req := by
  have hcr : ∀ f ∈ h.fields, 13 ∉ f.name := fun f hf => (hc f hf).1
  have C := carries_fields F h.fields (afterRequestLine p h path)
  generalize h.fields.foldl (afterField F) (afterRequestLine p h path) = p' at C
  have hreq : (afterRequestLine p h path).req = afterLine { p.req with Method := h.method } h path := rfl
  have hl : ∀ {α} (g : Request → α), (∀ (r : Request) (m : Method) (q : Query) (pa : Bytes) (pr : Proto),
      g { r with Method := m, Query := q, Path := pa, Proto := pr } = g r) →
      g (afterRequestLine p h path).req = g p.req := by
    intro α g hg
    exact hg p.req h.method _ path _
  have hlen : p.contentLength = Int.bmod ((0 : Nat) : Int) (2 ^ 64) := by rw [hp.length]; simp
  have hclen := C.length 0 hlen
  show Carries F p.cfg.maxEncodingTokens h p'.req
  constructor
  · rw [C.method]; rfl
  · intro s hs
    rw [C.path]
    have : UriDecode.Decode h.target = some s := by
      rw [UriDecode.Decode_eq]; exact UriDecode.pct_of_unescapes hs
    rw [hd] at this; simp at this; exact this
  · rw [C.query]
    simp only [hreq, afterLine]
    obtain ⟨q1, q2, q3⟩ := hr.query
    cases hq : h.query with
    | none => exact ⟨q1, q2, q3⟩
    | some q => simp [lineQuery, Query.set, q2, q3]
  · rw [C.proto]
    simp only [hreq, afterLine]
    obtain ⟨pr, hpr⟩ := hv
    rw [(isVersion_fromBytes hpr).1]; exact hpr
  · rw [C.headers, hl (fun r => r.Headers.pairs) (fun _ _ _ _ _ => rfl), hr.headers, filter_length_eq hcr]
    rfl
  · have : p'.req.ContentLength = p'.contentLength := by
      apply C.reqLength
      rw [hl (fun r => r.ContentLength) (fun _ _ _ _ _ => rfl), hr.contentLength]
      exact hp.length.symm
    rw [this, hclen, digitsOf_eq hcr]; rfl
  · rw [C.connection, hl (fun r => r.Connection) (fun _ _ _ _ _ => rfl), hr.connection,
      lastOf_eq hcr _ (by decide)]
  · rw [C.contentType, hl (fun r => r.ContentType) (fun _ _ _ _ _ => rfl), hr.contentType,
      lastOf_eq hcr _ (by decide)]
  · rw [C.upgrade, hl (fun r => r.Upgrade) (fun _ _ _ _ _ => rfl), hr.upgrade,
      lastOf_eq hcr _ (by decide)]
  · rw [C.trailer, hl (fun r => r.Encoding) (fun _ _ _ _ _ => rfl), hr.encoding,
      lastOf_eq hcr _ (by decide)]; simp
  · rw [C.content, hl (fun r => r.Encoding) (fun _ _ _ _ _ => rfl), hr.encoding,
      lastOf_eq hcr _ (by decide)]; rfl
  · rw [C.transfer, hl (fun r => r.Encoding) (fun _ _ _ _ _ => rfl), hr.encoding,
      lastOf_eq hcr _ (by decide)]; rfl
  · apply C.chunked
    rw [hl (fun r => r.Encoding) (fun _ _ _ _ _ => rfl), hr.encoding]; rfl

/-! ### Streams starting with a head -/

theorem cleanFields_render (fs : List Field) (hok : ∀ f ∈ fs, f.OK) (hc : ∀ f ∈ fs, 13 ∉ f.name ∧ 10 ∉ f.name)
    (c : Bool) (D : Bytes) : CleanFields (fs.flatMap Field.render ++ (eol c ++ D)) := by
  induction fs with
  | nil => cases c; exact .endLF D; exact .endCR (10 :: D)
  | cons f fs ih =>
    have ih := ih (fun g hg => hok g (by simp [hg])) (fun g hg => hc g (by simp [hg]))
    have hf := hok f (by simp)
    have hfc := hc f (by simp)
    have e : (f :: fs).flatMap Field.render ++ (eol c ++ D) =
        f.name ++ 58 :: (rawValue f ++ 10 :: (fs.flatMap Field.render ++ (eol c ++ D))) := by
      simp [Field.render, rawValue, eol_eq]
    rw [e]
    refine .field _ _ _ hfc.1 hfc.2 hf.name_colon ?_ ih
    have := hf.value_lf
    unfold rawValue
    cases f.crlf <;> simp [this]

/-- Two cuttings at the first delimiter agree. -/
theorem cut_unique {c : Byte} {a b a' b' : Bytes} (h : a ++ c :: b = a' ++ c :: b') (h1 : c ∉ a) (h2 : c ∉ a') :
    a = a' ∧ b = b' := by
  have e1 := cut_append (b := b) h1
  rw [h, cut_append h2] at e1
  simp at e1; exact ⟨e1.1.symm, e1.2.symm⟩

theorem cleanStream_render {h : Head} (ok : h.OK) (hc : h.CleanNames) (D : Bytes) : CleanStream (h.render ++ D) := by
  intro m line rest e hm hl
  rw [render_eq] at e
  obtain ⟨_, e2⟩ := cut_unique e (methodName_facts _ ok.method).1 hm
  obtain ⟨_, e3⟩ := cut_unique e2 (fullLine_lf ok) hl
  rw [← e3]
  exact cleanFields_render _ ok.fields hc _ _

theorem requestLineFits_render {h : Head} (ok : h.OK) (D : Bytes) {n : Nat} (hn : h.lineLength ≤ n) :
    RequestLineFits n (h.render ++ D) := by
  refine ⟨?_, ?_, ?_⟩
  · intro hx; rw [render_eq] at hx; simp at hx
  · intro m line e hm hl
    rw [render_eq] at e
    obtain ⟨_, e2⟩ := cut_unique e (methodName_facts _ ok.method).1 hm
    rw [← e2] at hl; simp at hl
  · intro m line rest e hm hl
    rw [render_eq] at e
    obtain ⟨e1, e2⟩ := cut_unique e (methodName_facts _ ok.method).1 hm
    obtain ⟨e3, _⟩ := cut_unique e2 (fullLine_lf ok) hl
    rw [← e1, ← e3, fullLine_length]; exact hn

/-- Lines of a clean stream have clean names. -/
theorem cleanNames_of_clean {fs : List Field} (hok : ∀ f ∈ fs, FieldOK f) (c : Bool) (D : Bytes)
    (h : CleanFields (fs.flatMap Field.render ++ (eol c ++ D))) : ∀ f ∈ fs, 13 ∉ f.name ∧ 10 ∉ f.name := by
  induction fs with
  | nil => simp
  | cons f fs ih =>
    have hf := hok f (by simp)
    have e : (f :: fs).flatMap Field.render ++ (eol c ++ D) =
        f.name ++ 58 :: (rawValue f ++ 10 :: (fs.flatMap Field.render ++ (eol c ++ D))) := by
      simp [Field.render, rawValue, eol_eq]
    have hraw : 10 ∉ rawValue f := by
      have := hf.value_lf
      unfold rawValue
      cases f.crlf <;> simp [this]
    rw [e] at h
    generalize hS : f.name ++ 58 :: (rawValue f ++ 10 :: (fs.flatMap Field.render ++ (eol c ++ D))) = S at h
    have hcut : cut 58 S = some (f.name, rawValue f ++ 10 :: (fs.flatMap Field.render ++ (eol c ++ D))) := by
      rw [← hS]; exact cut_append hf.name_colon
    cases h with
    | none => simp at hS
    | endLF r =>
      exfalso
      cases hn : f.name with
      | nil => rw [hn] at hS; simp at hS
      | cons x xs => have := hf.name_head.2; rw [hn] at this hS; simp at this hS; exact this hS.1
    | endCR r =>
      exfalso
      cases hn : f.name with
      | nil => rw [hn] at hS; simp at hS
      | cons x xs => have := hf.name_head.1; rw [hn] at this hS; simp at this hS; exact this hS.1
    | name n h1 h2 h3 => rw [cut_none.2 h3] at hcut; simp at hcut
    | value n v h1 h2 h3 h4 =>
      exfalso
      obtain ⟨_, e2⟩ := cut_unique hS hf.name_colon h3
      rw [← e2] at h4; simp at h4
    | field n v rest h1 h2 h3 h4 h5 =>
      obtain ⟨e1, e2⟩ := cut_unique hS hf.name_colon h3
      obtain ⟨_, e3⟩ := cut_unique e2 hraw h4
      rw [← e3] at h5
      have := ih (fun g hg => hok g (by simp [hg])) h5
      intro g hg
      simp at hg
      rcases hg with rfl | hg
      · rw [e1]; exact ⟨h1, h2⟩
      · exact this g hg

end Indigo.Parser
