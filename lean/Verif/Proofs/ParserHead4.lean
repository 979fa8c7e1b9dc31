/-
More lemmas about whole heads: too many header lines, list elements.
-/
import Verif.Proofs.ParserHead3
import Verif.Proofs.Tokens

namespace Indigo.Parser
open Indigo.Spec

theorem bmod_small (n : Nat) (h : n < 2 ^ 63) : Int.bmod (n : Int) (2 ^ 64) = n := by
  apply Int.bmod_eq_of_le
  · omega
  · omega

/-- Running over some header lines. -/
theorem exec_fields_prefix (F : Fold) (fs : List Field) : ∀ {p : PState} (D : Bytes), Fresh p →
    (∀ f ∈ fs, FieldOK f) → FieldsFit F p fs →
    exec F .headerKey p (fs.flatMap Field.render ++ D) = exec F .headerKey (fs.foldl (afterField F) p) D ∧
      Fresh (fs.foldl (afterField F) p) := by
  induction fs with
  | nil => intro p D hf _ _; exact ⟨rfl, hf⟩
  | cons f fs ih =>
    intro p D hf hok hfit
    simp only [List.flatMap_cons, List.foldl_cons, List.append_assoc]
    rw [exec_field F _ hf (hok f (by simp)) hfit.1]
    exact ih D (fresh_afterField F f hf) (fun g hg => hok g (by simp [hg])) hfit.2

/-- Running over the request line. -/
theorem exec_line (F : Fold) {p : PState} (hp : Ready p) {h : Head} (ok : h.OK) {path : Bytes}
    (hd : UriDecode.Decode h.target = some path) (hline : (fullLine h).length ≤ p.startLine.max) (D : Bytes) :
    exec F .method p (h.render ++ D) =
      exec F .headerKey (afterRequestLine p h path) (h.fields.flatMap Field.render ++ (eol h.lastCrlf ++ D)) := by
  rw [render_eq, exec_goto (exec_method F hp ok.method _)]
  have hstep : step F .path { p with req := { p.req with Method := h.method } }
      (fullLine h ++ 10 :: (h.fields.flatMap Field.render ++ (eol h.lastCrlf ++ D))) =
      .goto .headerKey (afterRequestLine p h path) (h.fields.flatMap Field.render ++ (eol h.lastCrlf ++ D)) := by
    have hb : p.startLine.append (fullLine h) = some { p.startLine with mem := fullLine h } := by
      simp [Buf.append, hp.startLine.1]; exact hline
    simp only [step, stepPath]
    rw [show LF = 10 from rfl, cut_append (fullLine_lf ok)]
    simp only [hb, Buf.finish, Buf.seg, hp.startLine.2, List.drop_zero, finishPath, requestLine_head ok hd]
    rfl
  rw [exec_goto hstep]

theorem foldl_bufs (F : Fold) (fs : List Field) : ∀ p : PState,
    (fs.foldl (afterField F) p).keyBuf.mem.length = p.keyBuf.mem.length + (fs.map (fun f => f.name.length)).sum ∧
    (fs.foldl (afterField F) p).keyBuf.max = p.keyBuf.max ∧
    (fs.foldl (afterField F) p).headersNumber = p.headersNumber + fs.length ∧
    (fs.foldl (afterField F) p).cfg = p.cfg := by
  induction fs with
  | nil => intro p; simp
  | cons f fs ih =>
    intro p
    obtain ⟨b1, b2, b3, b4, _⟩ := afterField_bufs F p f
    obtain ⟨i1, i2, i3, i4⟩ := ih (afterField F p f)
    simp only [List.foldl_cons, List.map_cons, List.sum_cons, List.length_cons]
    rw [i1, i2, i3, i4, b1, b2, b3, b4]
    simp; omega

theorem exec_key_too_many (F : Fold) {p : PState} {name D : Bytes} (hf : Fresh p) (h58 : 58 ∉ name)
    (hh : name.head? ≠ some 13 ∧ name.head? ≠ some 10)
    (hk : p.keyBuf.mem.length + name.length ≤ p.keyBuf.max) (hn : p.cfg.maxNumber < p.headersNumber + 1) :
    (exec F .headerKey p (name ++ 58 :: D)).2 = .error Status.ErrTooManyHeaders := by
  obtain ⟨h1, h2, _⟩ := Buf.append_fresh (d := name) hf.1 hk
  rw [exec_eq]
  simp only [step, stepHeaderKey]
  have hcut := cut_append (b := D) h58
  have hne : ∃ c cs, name ++ 58 :: D = c :: cs ∧ c ≠ LF ∧ c ≠ CR := by
    cases name with
    | nil => exact ⟨58, D, rfl, by decide, by decide⟩
    | cons x xs =>
      simp at hh
      exact ⟨x, xs ++ 58 :: D, rfl, hh.2, hh.1⟩
  obtain ⟨c, cs, e, e1, e2⟩ := hne
  rw [e] at hcut ⊢
  simp only [if_neg e1, if_neg e2, show COLON = 58 from rfl, hcut, h1, h2]
  rw [if_pos hn]

theorem exec_too_many (F : Fold) {p : PState} (hp : Ready p) {h : Head} (ok : h.OK) (clean : h.CleanNames)
    (nb : h.NoBareEmpty) (fits : h.Fits { limits p with number := h.fields.length })
    (many : p.cfg.maxNumber < h.fields.length) {path : Bytes} (hd : UriDecode.Decode h.target = some path)
    (D : Bytes) : (exec F .method p (h.render ++ D)).2 = .error Status.ErrTooManyHeaders := by
  have hline : (fullLine h).length ≤ p.startLine.max := by
    have := fits.line; rw [← fullLine_length] at this; simp [limits] at this; omega
  rw [exec_line F hp ok hd hline]
  obtain ⟨pre, f, post, hfs, hpre⟩ : ∃ pre f post, h.fields = pre ++ f :: post ∧ pre.length = p.cfg.maxNumber := by
    refine ⟨h.fields.take p.cfg.maxNumber, h.fields[p.cfg.maxNumber], h.fields.drop (p.cfg.maxNumber + 1), ?_, ?_⟩
    · rw [← List.drop_eq_getElem_cons many, List.take_append_drop]
    · rw [List.length_take]; omega
  have hmem : ∀ g ∈ pre, g ∈ h.fields := by intro g hg; rw [hfs]; simp [hg]
  have hfit : FieldsFit F (afterRequestLine p { h with fields := pre } path) pre := by
    have hc : ({ h with fields := pre } : Head).CleanNames := fun g hg => clean g (hmem g hg)
    refine (fits_iff F hp (h := { h with fields := pre }) hc path).2 ⟨?_, ?_, ?_, ?_, ?_⟩
    · have := fits.names; rw [hfs] at this; simp [limits] at this; simp; omega
    · have := fits.values; rw [hfs] at this; simp only [limits, List.filter_append, List.map_append, List.sum_append] at this
      simp only; omega
    · simp; omega
    · intro g hg hl; exact fits.value g (hmem g hg) hl
    · intro g hg; exact nb g (hmem g hg)
  have hfr : Fresh (afterRequestLine p h path) := by
    simp [Fresh, afterRequestLine, hp.keyBuf.1, hp.keyBuf.2, hp.valBuf.1, hp.valBuf.2]
  rw [hfs, List.flatMap_append, List.append_assoc]
  have hpok : ∀ g ∈ pre, FieldOK g := fun g hg => (fieldOK_iff (clean g (hmem g hg)).1).2 (ok.fields g (hmem g hg))
  obtain ⟨e1, e2⟩ := exec_fields_prefix F pre (p := afterRequestLine p h path)
    ((f :: post).flatMap Field.render ++ (eol h.lastCrlf ++ D)) hfr hpok hfit
  rw [e1]
  have hf : f ∈ h.fields := by rw [hfs]; simp
  have fok := ok.fields f hf
  obtain ⟨b1, b2, b3, b4⟩ := foldl_bufs F pre (afterRequestLine p h path)
  rw [List.flatMap_cons, List.append_assoc, render_append]
  apply exec_key_too_many F e2 fok.name_colon fok.name_head
  · rw [b1, b2]
    have := fits.names; rw [hfs] at this; simp [limits] at this
    simp [afterRequestLine, hp.keyBuf.1]; omega
  · rw [b3, b4]
    simp [afterRequestLine, hp.number]; omega

/-! ### List elements -/

theorem splitComma_cons_ne {c : Byte} (h : c ≠ 44) (cs : Bytes) :
    splitComma (c :: cs) = match splitComma cs with
      | [] => [[c]]
      | t :: ts => (c :: t) :: ts := by
  simp only [splitComma, h, if_false]; rfl

theorem splitComma_text_one {s : Bytes} (h : 44 ∉ s) : splitComma s = [s] := by
  induction s with
  | nil => rfl
  | cons c cs ih =>
    simp at h
    rw [splitComma_cons_ne (Ne.symm h.1), ih h.2]

theorem splitComma_text_cons {s r : Bytes} (h : 44 ∉ s) : splitComma (s ++ 44 :: r) = s :: splitComma r := by
  induction s with
  | nil => simp [splitComma]
  | cons c cs ih =>
    simp at h
    rw [List.cons_append, splitComma_cons_ne (Ne.symm h.1), ih h.2]

theorem padded_comma {s t : Bytes} (h : Padded s t) (ht : IsToken t) : 44 ∉ s := by
  have := cut_one h ht
  exact cut_none.1 this

theorem listElems_text {v : Bytes} {ts : List Bytes} (h : ListText v ts) (ht : ∀ t ∈ ts, IsToken t) :
    listElems v = ts.filter (· ≠ []) := by
  unfold listElems
  congr 1
  induction h with
  | @one s t hp =>
    have htt := ht t (by simp)
    rw [splitComma_text_one (padded_comma hp htt)]
    simp [trimSpace_padded hp htt]
  | @cons s t r ts hp hl ih =>
    have htt := ht t (by simp)
    rw [splitComma_text_cons (padded_comma hp htt)]
    simp [trimSpace_padded hp htt]
    exact ih (fun t h => ht t (by simp [h]))

theorem isPlainTok_token (c : Byte) (h : isPlainTok c = true) : c ≠ 44 ∧ 32 < c.toNat ∧ c.toNat < 127 := by
  revert h
  revert c
  apply byte_forall
  decide +kernel

end Indigo.Parser
