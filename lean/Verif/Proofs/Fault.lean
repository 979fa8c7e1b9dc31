/-
Faults of heads and the errors they are reported with.
-/
import Verif.Spec.Fault
import Verif.Proofs.Reject

namespace Indigo.Parser
open Indigo.Spec

theorem pct_of_escapable {e : Bytes} (h : Escapable e) : ∃ s, UriDecode.pct e = some s := by
  induction h with
  | nil => exact ⟨_, rfl⟩
  | @lit c e hc _ ih => obtain ⟨s, hs⟩ := ih; exact ⟨c :: s, by simp [UriDecode.pct_cons, hc, hs]⟩
  | @esc h l e _ ih => obtain ⟨s, hs⟩ := ih; exact ⟨_, by rw [UriDecode.pct_cons]; simp [hs]; rfl⟩

/-- Request line behind a known method. -/
theorem requestLine_fault {k : Method} (hk : k ≠ .Unknown) {line : Bytes} {e : Status.HTTPError}
    (h : LineFault (methodName k) line e) (r : Request) : (requestLine r line).2 = some (.error e) := by
  have hcl : ∀ (a b : Bytes), 32 ∉ b → cutLast SP (a ++ 32 :: b) = some (a, b) := fun a b hb => cutLast_append hb
  have hquest : ∀ t query, 63 ∉ t → cut QUEST (t ++ queryPart query) =
      (match query with | none => none | some q => some (t, q)) := by
    intro t query ht
    cases query with
    | none => simp [cut_none.2 ht, QUEST, queryPart]
    | some q => exact cut_append ht
  generalize hm : methodName k = m at h
  cases h with
  | noMethod => exact absurd hm (methodName_facts k hk).2.1
  | unknownMethod _ _ _ hu => exact absurd hm.symm (hu k)
  | noVersion k' _ _ h32 =>
    unfold requestLine
    have : cutLast SP line = none := by
      cases hc : cutLast SP line with
      | none => rfl
      | some x =>
        obtain ⟨a, b⟩ := x
        obtain ⟨rfl, _⟩ := cutLast_some hc
        exact absurd (by simp [SP]) h32
    rw [this]
  | noTarget k' query version _ h32 hne =>
    unfold requestLine
    rw [hcl _ _ h32]
    simp only [List.getLast?_eq_some_getLast hne]
    have := hquest [] query (by simp)
    rw [List.nil_append] at this
    rw [this]
    cases query <;> simp [queryPart]
  | badEscape k' target query version _ ht h63 hesc h32 hne =>
    unfold requestLine
    rw [hcl _ _ h32]
    simp only [List.getLast?_eq_some_getLast hne]
    rw [hquest target query h63]
    have hd : UriDecode.Decode target = none := by
      rw [UriDecode.Decode_eq]
      cases hp : UriDecode.pct target with
      | none => rfl
      | some s => exact absurd (escapable_of_pct hp) hesc
    cases query <;> simp [queryPart, ht, hd]
  | badVersion k' target query version crlf _ ht h63 hesc h32 hv hbad =>
    unfold requestLine
    rw [hcl _ _ (by cases crlf <;> simp [h32])]
    have hlast : ∃ last, (version ++ if crlf then [13] else []).getLast? = some last ∧
        (if last = CR then (version ++ if crlf then [13] else []).dropLast
          else (version ++ if crlf then [13] else [])) = version := by
      cases crlf with
      | true => exact ⟨13, by simp, by simp [CR]⟩
      | false =>
        obtain ⟨hne, hl⟩ := hv rfl
        simp only [Bool.false_eq_true, if_false, List.append_nil]
        refine ⟨version.getLast hne, List.getLast?_eq_some_getLast hne, ?_⟩
        rw [if_neg]
        intro e; apply hl; rw [List.getLast?_eq_some_getLast hne, e]
    obtain ⟨last, hl1, hl2⟩ := hlast
    simp only [hl1, hl2]
    rw [hquest target query h63]
    obtain ⟨s, hs⟩ := pct_of_escapable hesc
    have hd : UriDecode.Decode target = some s := by rw [UriDecode.Decode_eq]; exact hs
    have hp : Proto.fromBytes version = Proto.Unknown := by
      cases Decidable.em (Proto.fromBytes version = Proto.Unknown) with
      | inl h => exact h
      | inr h => exact absurd ⟨_, fromBytes_isVersion h⟩ hbad
    cases query <;> simp [queryPart, ht, hd, hp]

theorem line_fault (F : Fold) {p : PState} (hp : Ready p) {m line rest : Bytes} {e : Status.HTTPError} (h1 : 32 ∉ m)
    (h2 : 10 ∉ line) (h3 : m.length + line.length ≤ p.startLine.max) (h : LineFault m line e) :
    (exec F .method p (m ++ 32 :: (line ++ 10 :: rest))).2 = .error e := by
  have hs : p.startLine.segLen = 0 := by simp [Buf.segLen, hp.startLine.1]
  have key : ∀ k : Method, k ≠ .Unknown → m = methodName k →
      (exec F .method p (m ++ 32 :: (line ++ 10 :: rest))).2 = .error e := by
    intro k hk hm
    subst hm
    rw [exec_goto (exec_method F hp hk _), exec_eq]
    have hb : p.startLine.append line = some { p.startLine with mem := line } := by
      simp [Buf.append, hp.startLine.1]; omega
    simp only [step, stepPath]
    rw [show LF = 10 from rfl, cut_append h2]
    simp only [hb, Buf.finish, Buf.seg, hp.startLine.2, List.drop_zero, finishPath]
    have := requestLine_fault hk h { p.req with Method := k }
    rcases hr : requestLine { p.req with Method := k } line with ⟨r, o⟩
    rw [hr] at this
    dsimp only at this
    subst this
    rfl
  cases h with
  | noMethod =>
    rw [exec_eq]
    simp only [step, stepMethod]
    rw [show SP = 32 from rfl, cut_append h1]
    simp [takeMethod, hs, finishMethod]
  | unknownMethod _ _ hne hu =>
    rw [exec_eq]
    simp only [step, stepMethod]
    rw [show SP = 32 from rfl, cut_append h1]
    have : Method.parse m = .Unknown := by
      cases Decidable.em (Method.parse m = .Unknown) with
      | inl h => exact h
      | inr h => exact absurd ((Props.C15_method_recognised_iff m _ h).1 rfl) (hu _)
    simp [takeMethod, hs, finishMethod, hne, this]
  | noVersion k _ hk => exact key k hk rfl
  | noTarget k _ _ hk => exact key k hk rfl
  | badEscape k _ _ _ hk => exact key k hk rfl
  | badVersion k _ _ _ _ hk => exact key k hk rfl

theorem special_length (name : Bytes) (h13 : 13 ∉ name) : isContentLengthKey name = true ↔ lower name = b!"content-length" := by
  rw [isContentLengthKey_eq, named_eq_lower (by decide) h13]
  simp

theorem name_ok {name : Bytes} (h13 : 13 ∉ name) (h10 : 10 ∉ name) : name.head? ≠ some 13 ∧ name.head? ≠ some 10 := by
  cases name with
  | nil => simp
  | cons c cs =>
    simp at h13 h10 ⊢
    exact ⟨fun h => h13.1 h.symm, fun h => h10.1 h.symm⟩

theorem section_fault (F : Fold) {L : Limits} {a b n : Nat} {s : Bytes} {e : Status.HTTPError} (h : SectionFault L a b n s e) :
    ∀ p : PState, Fresh p → limits p = L → p.keyBuf.mem.length = a → p.valBuf.mem.length = b → p.headersNumber = n →
      (exec F .headerKey p s).2 = .error e := by
  induction h with
  | noEnd c rest hc =>
    intro p _ _ _ _ _
    have : step F .headerKey p (13 :: c :: rest) = .goto .headerValueCRLFCR p (c :: rest) := by
      simp [step, stepHeaderKey, LF, CR]
    rw [exec_goto this, exec_eq]
    simp [step, stepCRLFCR, LF, hc]
  | names name rest h13 h10 h58 hl =>
    rintro p hf rfl rfl rfl rfl
    rw [exec_eq]
    simp only [step, stepHeaderKey]
    have hcut := cut_append (b := rest) h58
    have hne : ∃ c cs, name ++ 58 :: rest = c :: cs ∧ c ≠ LF ∧ c ≠ CR := by
      have hh := name_ok h13 h10
      cases name with
      | nil => exact ⟨58, rest, rfl, by decide, by decide⟩
      | cons x xs =>
        simp at hh
        exact ⟨x, xs ++ 58 :: rest, rfl, hh.2, hh.1⟩
    obtain ⟨c, cs, e, e1, e2⟩ := hne
    rw [e] at hcut ⊢
    have hb : p.keyBuf.append name = none := by
      simp [Buf.append]; simpa [limits] using hl
    simp only [if_neg e1, if_neg e2, show COLON = 58 from rfl, hcut, hb]
  | namesOpen name hne h13 h10 h58 hl =>
    rintro p hf rfl rfl rfl rfl
    rw [exec_eq]
    simp only [step, stepHeaderKey]
    have hh := name_ok h13 h10
    have hb : p.keyBuf.append name = none := by
      simp [Buf.append]; simpa [limits] using hl
    have hcut := cut_none.2 h58
    cases name with
    | nil => exact absurd rfl hne
    | cons x xs =>
      simp at hh
      simp only [show LF = 10 from rfl, show CR = 13 from rfl, if_neg hh.2, if_neg hh.1, show COLON = 58 from rfl, hcut, hb]
  | number name rest h13 h10 h58 hl hn =>
    rintro p hf rfl rfl rfl rfl
    exact exec_key_too_many F hf h58 (name_ok h13 h10) hl hn
  | length name ds c rest h13 h10 h58 hl hn hcl hds hc1 hc2 hc3 hc4 =>
    rintro p hf rfl rfl rfl rfl
    rw [exec_goto (step_key F hf h58 (name_ok h13 h10) hl hn)]
    have hk : isContentLengthKey name = true := ((special_length name h13).2 hcl)
    simp only [valueLabel, hk, if_true]
    rw [exec_eq]
    have hstop : ∀ n, clDigits n (c :: rest) = (n, c :: rest) := by
      intro n
      have : c < 48 ∨ c > 57 := by
        simp [isDigit, UInt8.le_iff_toNat_le, UInt8.lt_iff_toNat_lt] at hc2 ⊢; omega
      simp only [clDigits]
      rw [if_neg (by simpa [SP] using hc1), if_pos this]
    simp only [step, stepContentLength, clDigits_value _ _ _ hds, hstop]
    rw [if_neg (by simpa [CR] using hc3), if_neg (by simpa [LF] using hc4)]
  | lengthEnd name ds c rest h13 h10 h58 hl hn hcl hds hc =>
    rintro p hf rfl rfl rfl rfl
    rw [exec_goto (step_key F hf h58 (name_ok h13 h10) hl hn)]
    have hk : isContentLengthKey name = true := ((special_length name h13).2 hcl)
    simp only [valueLabel, hk, if_true]
    rw [exec_eq]
    have hstop : ∀ n, clDigits n (13 :: c :: rest) = (n, 13 :: c :: rest) := by
      intro n
      simp [clDigits, SP]
    simp only [step, stepContentLength, clDigits_value _ _ _ hds, hstop]
    rw [if_pos trivial]
    simp only
    rw [exec_eq]
    simp [step, stepContentLengthCR, LF, hc]
  | value name v rest h13 h10 h58 hl hn hcl hv hbig =>
    rintro p hf rfl rfl rfl rfl
    rw [exec_goto (step_key F hf h58 (name_ok h13 h10) hl hn)]
    have hk : isContentLengthKey name = false := by
      cases hk : isContentLengthKey name with
      | false => rfl
      | true => exact absurd ((special_length name h13).1 hk) hcl
    simp only [valueLabel, hk, Bool.false_eq_true, if_false]
    rw [exec_eq]
    simp only [step, stepHeaderValue]
    rw [show LF = 10 from rfl, cut_append hv]
    simp only
    cases hb : (afterKey p name).valBuf.append v with
    | none => rfl
    | some vb =>
      obtain ⟨h1, rfl⟩ := Buf.append_inv hb
      have hfr : (afterKey p name).valBuf.start = (afterKey p name).valBuf.mem.length := hf.2
      have : ({ (afterKey p name).valBuf with mem := (afterKey p name).valBuf.mem ++ v } : Buf).segLen = v.length := by
        simp [Buf.segLen, hfr]
      simp only [this]
      rw [if_pos]
      rcases hbig with hb | hb
      · exact hb
      · exact absurd h1 (by simp [limits] at hb; simp [afterKey]; omega)
  | valueOpen name v h13 h10 h58 hl hn hcl hv hbig =>
    rintro p hf rfl rfl rfl rfl
    rw [exec_goto (step_key F hf h58 (name_ok h13 h10) hl hn)]
    have hk : isContentLengthKey name = false := by
      cases hk : isContentLengthKey name with
      | false => rfl
      | true => exact absurd ((special_length name h13).1 hk) hcl
    simp only [valueLabel, hk, Bool.false_eq_true, if_false]
    rw [exec_eq]
    simp only [step, stepHeaderValue]
    rw [show LF = 10 from rfl, cut_none.2 hv]
    simp only
    cases hb : (afterKey p name).valBuf.append v with
    | none => rfl
    | some vb =>
      obtain ⟨h1, rfl⟩ := Buf.append_inv hb
      have hfr : (afterKey p name).valBuf.start = (afterKey p name).valBuf.mem.length := hf.2
      have : ({ (afterKey p name).valBuf with mem := (afterKey p name).valBuf.mem ++ v } : Buf).segLen = v.length := by
        simp [Buf.segLen, hfr]
      simp only [this]
      rw [if_pos]
      rcases hbig with hb | hb
      · exact hb
      · exact absurd h1 (by simp [limits] at hb; simp [afterKey]; omega)
  | next f rest e ok h13 h10 hl hn hv _ ih =>
    rintro p hf rfl rfl rfl rfl
    have hlen : isContentLengthKey f.name = f.isLength := isLength_eq h13
    have hraw := rawValue_length f
    rw [exec_field F rest hf ((fieldOK_iff h13).2 ok) ⟨hl, hn, by
      intro hk
      rw [hlen] at hk
      obtain ⟨a1, a2, a3⟩ := hv hk
      rw [hraw]
      exact ⟨a2, a1, a3⟩⟩]
    obtain ⟨b1, b2, b3, b4, b5, b6, b7⟩ := afterField_bufs F p f
    refine ih _ (fresh_afterField F f hf) ?_ ?_ ?_ b3
    · simp [limits, b2, b4, b5, b7]
    · simp [b1]
    · rw [b6, hlen]
      cases f.isLength <;> simp [hraw]

theorem head_fault (F : Fold) {p : PState} (hp : Ready p) {s : Bytes} {e : Status.HTTPError} (h : HeadFault (limits p) s e) :
    (exec F .method p s).2 = .error e := by
  have hs : p.startLine.segLen = 0 := by simp [Buf.segLen, hp.startLine.1]
  cases h with
  | noMethod rest =>
    rw [exec_eq]
    simp [step, stepMethod, cut, SP, takeMethod, hs, finishMethod]
  | unknownMethod m rest h1 hne hu =>
    rw [exec_eq]
    simp only [step, stepMethod]
    rw [show SP = 32 from rfl, cut_append h1]
    have : Method.parse m = .Unknown := by
      cases Decidable.em (Method.parse m = .Unknown) with
      | inl h => exact h
      | inr h => exact absurd ((Props.C15_method_recognised_iff m _ h).1 rfl) (hu _)
    simp [takeMethod, hs, finishMethod, hne, this]
  | line m line rest _ h1 h2 h3 h4 => exact line_fault F hp h1 h2 h3 h4
  | fields h rest _ ok hesc hl hsec =>
    obtain ⟨s, hs⟩ := pct_of_escapable hesc
    have hd : UriDecode.Decode h.target = some s := by rw [UriDecode.Decode_eq]; exact hs
    have hline : (fullLine h).length ≤ p.startLine.max := by
      rw [← fullLine_length] at hl; simp [limits] at hl; omega
    rw [show h.line ++ eol h.crlf ++ rest = fullLine h ++ 10 :: rest by simp [fullLine, eol_eq]]
    rw [exec_goto (exec_method F hp ok.method _)]
    have hstep : step F .path { p with req := { p.req with Method := h.method } } (fullLine h ++ 10 :: rest) =
        .goto .headerKey (afterRequestLine p h s) rest := by
      have hb : p.startLine.append (fullLine h) = some { p.startLine with mem := fullLine h } := by
        simp [Buf.append, hp.startLine.1]; exact hline
      simp only [step, stepPath]
      rw [show LF = 10 from rfl, cut_append (fullLine_lf ok)]
      simp only [hb, Buf.finish, Buf.seg, hp.startLine.2, List.drop_zero, finishPath, requestLine_head ok hd]
      rfl
    rw [exec_goto hstep]
    refine section_fault F hsec _ ?_ rfl ?_ ?_ ?_
    · simp [Fresh, afterRequestLine, hp.keyBuf.1, hp.keyBuf.2, hp.valBuf.1, hp.valBuf.2]
    · simp [afterRequestLine, hp.keyBuf.1]
    · simp [afterRequestLine, hp.valBuf.1]
    · exact hp.number

end Indigo.Parser
