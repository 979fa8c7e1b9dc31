/-
A stream is a sequence of well-formed requests, and something of one of the kinds, in one way only.
-/
import Verif.Proofs.Kinds

namespace Indigo.Parser
open Indigo.Spec

/-! ### Heads -/

theorem eol_cut {c c' : Bool} {a b a' b' : Bytes} (e : a ++ (eol c ++ b) = a' ++ (eol c' ++ b')) (h : 10 ∉ a) (h' : 10 ∉ a')
    (hl : c = false → a.getLast? ≠ some 13) (hl' : c' = false → a'.getLast? ≠ some 13) : a = a' ∧ c = c' ∧ b = b' := by
  cases c <;> cases c'
  · simp only [eol, Bool.false_eq_true, if_false, List.singleton_append] at e
    obtain ⟨h1, h2⟩ := cut_unique e h h'
    exact ⟨h1, rfl, h2⟩
  · have e' : a ++ 10 :: b = (a' ++ [13]) ++ 10 :: b' := by simpa [eol] using e
    obtain ⟨h1, _⟩ := cut_unique e' h (by simp [h'])
    exact absurd (by rw [h1]; simp) (hl rfl)
  · have e' : (a ++ [13]) ++ 10 :: b = a' ++ 10 :: b' := by simpa [eol] using e
    obtain ⟨h1, _⟩ := cut_unique e' (by simp [h]) h'
    exact absurd (by rw [← h1]; simp) (hl' rfl)
  · have e' : (a ++ [13]) ++ 10 :: b = (a' ++ [13]) ++ 10 :: b' := by simpa [eol] using e
    obtain ⟨h1, h2⟩ := cut_unique e' (by simp [h]) (by simp [h'])
    exact ⟨by simpa using h1, rfl, h2⟩

theorem pad_unique {v v' : Bytes} (h : v.head? ≠ some 32) (h' : v'.head? ≠ some 32) :
    ∀ n n' : Nat, List.replicate n 32 ++ v = List.replicate n' 32 ++ v' → n = n' ∧ v = v' := by
  intro n
  induction n with
  | zero =>
    intro n' e
    cases n' with
    | zero => simpa using e
    | succ n' => simp [List.replicate_succ] at e; rw [e] at h; simp at h
  | succ n ih =>
    intro n' e
    cases n' with
    | zero => simp [List.replicate_succ] at e; rw [← e] at h'; simp at h'
    | succ n' =>
      simp only [List.replicate_succ, List.cons_append, List.cons.injEq, true_and] at e
      obtain ⟨h1, h2⟩ := ih n' e
      exact ⟨by rw [h1], h2⟩

theorem fields_unique (c c' : Bool) (b b' : Bytes) : ∀ (fs fs' : List Field), (∀ f ∈ fs, f.OK) → (∀ f ∈ fs', f.OK) →
    fs.flatMap Field.render ++ (eol c ++ b) = fs'.flatMap Field.render ++ (eol c' ++ b') → fs = fs' ∧ c = c' ∧ b = b' := by
  have headE : ∀ (c : Bool) (b : Bytes), ∃ x t, eol c ++ b = x :: t ∧ (x = 13 ∨ x = 10) := by
    intro c b; cases c <;> simp [eol]
  have headF : ∀ (f : Field) (t : Bytes), f.OK → ∃ x s, f.render ++ t = x :: s ∧ x ≠ 13 ∧ x ≠ 10 := by
    intro f t ok
    unfold Field.render
    cases hn : f.name with
    | nil => exact ⟨58, _, rfl, by decide, by decide⟩
    | cons x xs =>
      refine ⟨x, _, rfl, ?_, ?_⟩
      · intro h; exact ok.name_head.1 (by rw [hn, h]; rfl)
      · intro h; exact ok.name_head.2 (by rw [hn, h]; rfl)
  intro fs
  induction fs with
  | nil =>
    intro fs' _ h' e
    cases fs' with
    | nil => exact ⟨rfl, (eol_cut (a := []) (a' := []) e (by simp) (by simp) (by simp) (by simp)).2⟩
    | cons f' fs' =>
      exfalso
      obtain ⟨x, t, e1, hx⟩ := headE c b
      obtain ⟨y, s, e2, h13, h10⟩ := headF f' (fs'.flatMap Field.render ++ (eol c' ++ b')) (h' f' (by simp))
      simp only [List.flatMap_nil, List.nil_append, List.flatMap_cons, List.append_assoc] at e
      rw [e1, e2] at e
      simp only [List.cons.injEq] at e
      rcases hx with hx | hx
      · exact h13 (by rw [← e.1, hx])
      · exact h10 (by rw [← e.1, hx])
  | cons f fs ih =>
    intro fs' h h' e
    cases fs' with
    | nil =>
      exfalso
      obtain ⟨x, t, e1, hx⟩ := headE c' b'
      obtain ⟨y, s, e2, h13, h10⟩ := headF f (fs.flatMap Field.render ++ (eol c ++ b)) (h f (by simp))
      simp only [List.flatMap_nil, List.nil_append, List.flatMap_cons, List.append_assoc] at e
      rw [e1, e2] at e
      simp only [List.cons.injEq] at e
      rcases hx with hx | hx
      · exact h13 (by rw [e.1, hx])
      · exact h10 (by rw [e.1, hx])
    | cons f' fs' =>
      have ok := h f (by simp)
      have ok' := h' f' (by simp)
      simp only [List.flatMap_cons, Field.render, List.append_assoc, List.cons_append] at e
      obtain ⟨hname, e⟩ := cut_unique e ok.name_colon ok'.name_colon
      have lf : ∀ (g : Field), g.OK → 10 ∉ List.replicate g.pad (32 : Byte) ++ g.value := by
        intro g hg hm
        rcases List.mem_append.1 hm with hm | hm
        · exact absurd (List.eq_of_mem_replicate hm) (by decide)
        · exact hg.value_lf hm
      have lst : ∀ (g : Field), g.OK → g.crlf = false → (List.replicate g.pad (32 : Byte) ++ g.value).getLast? ≠ some 13 := by
        intro g hg hc hl
        rw [List.getLast?_append] at hl
        cases hv : g.value.getLast? with
        | some y => rw [hv] at hl; simp at hl; subst hl; exact hg.value_last hc hv
        | none =>
          rw [hv] at hl
          simp only [Option.none_or] at hl
          exact absurd (List.eq_of_mem_replicate (List.mem_of_getLast? hl)) (by decide)
      rw [← List.append_assoc, ← List.append_assoc (List.replicate f'.pad 32)] at e
      obtain ⟨e1, hcr, e2⟩ := eol_cut e (lf f ok) (lf f' ok') (lst f ok) (lst f' ok')
      obtain ⟨hp, hv⟩ := pad_unique ok.value_head ok'.value_head _ _ e1
      obtain ⟨hfs, hrest⟩ := ih fs' (fun g hg => h g (by simp [hg])) (fun g hg => h' g (by simp [hg])) e2
      refine ⟨?_, hrest⟩
      have : f = f' := by
        cases f; cases f'
        simp only at hname hcr hp hv
        rw [hname, hcr, hp, hv]
      rw [this, hfs]

theorem version_last {v : Bytes} (h : ∃ p, IsVersion v p) : ∃ x, v.getLast? = some x ∧ x ≠ 13 := by
  obtain ⟨p, sep, h | h | h⟩ := h <;> rw [h.1]
  · exact ⟨48, by simp, by decide⟩
  · exact ⟨49, by simp, by decide⟩
  · exact ⟨48, by simp, by decide⟩

theorem cut_last {c : Byte} {a b a' b' : Bytes} (h : a ++ c :: b = a' ++ c :: b') (h1 : c ∉ b) (h2 : c ∉ b') : a = a' ∧ b = b' := by
  have e := congrArg List.reverse h
  simp only [List.reverse_append, List.reverse_cons, List.append_assoc, List.singleton_append] at e
  obtain ⟨e1, e2⟩ := cut_unique e (by simpa using h1) (by simpa using h2)
  exact ⟨List.reverse_inj.1 e2, List.reverse_inj.1 e1⟩

theorem query_unique {t t' : Bytes} {q q' : Option Bytes} (e : t ++ queryPart q = t' ++ queryPart q') (h : 63 ∉ t) (h' : 63 ∉ t') :
    t = t' ∧ q = q' := by
  cases q <;> cases q' <;> simp only [queryPart, List.append_nil] at e
  · exact ⟨e, rfl⟩
  · exact absurd (by rw [e]; simp) h
  · exact absurd (by rw [← e]; simp) h'
  · obtain ⟨h1, h2⟩ := cut_unique e h h'
    exact ⟨h1, by rw [h2]⟩

/-- A well-formed head is the beginning of a stream in one way only. -/
theorem head_unique {h h' : Head} {b b' : Bytes} (ok : h.OK) (ok' : h'.OK) (e : h.render ++ b = h'.render ++ b') : h = h' ∧ b = b' := by
  unfold Head.render at e
  simp only [List.append_assoc, List.cons_append] at e
  obtain ⟨hm, e⟩ := cut_unique e (methodName_facts _ ok.method).1 (methodName_facts _ ok'.method).1
  have hmeth : h.method = h'.method := by
    have h1 := (methodName_facts _ ok.method).2.2
    have h2 := (methodName_facts _ ok'.method).2.2
    rw [hm, h2] at h1; exact h1.symm
  have lf : ∀ (g : Head), g.OK → 10 ∉ g.line := by
    intro g hg
    unfold Head.line
    intro hin
    simp only [List.mem_append, List.mem_cons] at hin
    rcases hin with (hin | hin) | hin | hin
    · exact hg.target.2.1 hin
    · cases hq : g.query with
      | none => rw [hq] at hin; simp [queryPart] at hin
      | some q =>
        rw [hq] at hin
        simp only [queryPart, List.mem_cons] at hin
        rcases hin with hin | hin
        · exact absurd hin (by decide)
        · exact hg.query q hq hin
    · exact absurd hin (by decide)
    · exact hg.version.2.2 hin
  have lst : ∀ (g : Head), g.OK → g.line.getLast? ≠ some 13 := by
    intro g hg hl
    obtain ⟨x, hx, hne⟩ := version_last hg.version.1
    unfold Head.line at hl
    rw [List.getLast?_append, List.getLast?_cons, hx] at hl
    simp at hl
    exact hne hl
  obtain ⟨hline, hcr, e⟩ := eol_cut e (lf h ok) (lf h' ok') (fun _ => lst h ok) (fun _ => lst h' ok')
  obtain ⟨hf, hlast, hb⟩ := fields_unique _ _ _ _ _ _ ok.fields ok'.fields e
  unfold Head.line at hline
  obtain ⟨htq, hv⟩ := cut_last hline ok.version.2.1 ok'.version.2.1
  obtain ⟨ht, hq⟩ := query_unique htq ok.target.2.2 ok'.target.2.2
  refine ⟨?_, hb⟩
  cases h; cases h'
  simp only at hmeth hcr hf hlast hv ht hq
  rw [hmeth, hcr, hf, hlast, hv, ht, hq]

/-! ### Bodies -/

theorem unescapes_unique {e s s' : Bytes} (h : Unescapes e s) (h' : Unescapes e s') : s = s' := by
  induction h generalizing s' with
  | nil => cases h'; rfl
  | lit hc _ ih =>
    cases h' with
    | lit _ h2 => rw [ih h2]
    | esc _ => exact absurd rfl hc
  | esc _ ih =>
    cases h' with
    | lit hc _ => exact absurd rfl hc
    | esc h2 => rw [ih h2]

theorem coding_unique {cs cs' : List Bytes} {a a' b b' : Bytes} (h : ChunkedCoding cs a) (h' : ChunkedCoding cs' a') (e : a ++ b = a' ++ b') :
    cs.flatten = cs'.flatten ∧ a = a' ∧ b = b' := by
  have h1 := Spec.crun_coding false h b
  rw [e, Spec.crun_coding false h' b'] at h1
  simp only [Option.some.injEq, Prod.mk.injEq] at h1
  refine ⟨h1.1.symm, ?_, h1.2.symm⟩
  rw [h1.2] at e
  exact List.append_cancel_right e

/-- A well-formed request is the beginning of a stream in one way only. -/
theorem sending_unique {F : Fold} {L : Limits} {T B : Nat} {s s' : Sending} {b b' : Bytes} (h : Sendable F L T B s) (h' : Sendable F L T B s')
    (e : s.bytes ++ b = s'.bytes ++ b') : s = s' ∧ b = b' := by
  unfold Sending.bytes at e
  rw [List.append_assoc, List.append_assoc] at e
  obtain ⟨hh, e'⟩ := head_unique h.ok h'.ok e
  clear e
  obtain ⟨head, path, body, coded⟩ := s
  obtain ⟨head', path', body', coded'⟩ := s'
  simp only at hh e'
  subst hh
  have hp : path = path' := unescapes_unique h.path h'.path
  subst hp
  have : body = body' ∧ coded = coded' ∧ b = b' := by
    cases h.framed with
    | sized hc h1 h2 =>
      cases h'.framed with
      | sized _ h3 h4 =>
        simp only at h1 h2 h3 h4
        subst h1; subst h3
        have := List.append_inj e' (by rw [← h2, h4])
        exact ⟨this.1, this.1, this.2⟩
      | chunked _ hc' _ _ => simp only at hc hc'; rw [hc] at hc'; cases hc'
    | chunked cs hc h1 h2 =>
      cases h'.framed with
      | sized hc' _ _ => simp only at hc hc'; rw [hc] at hc'; cases hc'
      | chunked cs' _ h3 h4 =>
        obtain ⟨e1, e2, e3⟩ := coding_unique h1 h3 e'
        simp only at h2 h4
        exact ⟨by rw [h2, h4, e1], e2, e3⟩
  obtain ⟨rfl, rfl, rfl⟩ := this
  exact ⟨rfl, rfl⟩

/-- The body which is announced comes to its end, or does not. -/
theorem cut_not_framed {F : Fold} {T B : Nat} {h : Head} {path body coded after : Bytes} (fr : Framed F T ⟨h, path, body, coded⟩)
    (hB : body.length ≤ B) : ¬ CutBody F T B h (coded ++ after) := by
  intro cut
  cases fr with
  | sized hc h1 h2 =>
    simp only at hc h1 h2
    subst h1
    cases cut with
    | short _ hl => rw [List.length_append] at hl; omega
    | large _ hl => omega
    | chunked _ _ hc' => rw [hc] at hc'; cases hc'
  | chunked cs hc h1 h2 =>
    simp only at hc h1 h2
    cases cut with
    | short hc' => rw [hc] at hc'; cases hc'
    | large hc' => rw [hc] at hc'; cases hc'
    | chunked cs' missing _ h3 hm _ =>
      obtain ⟨_, e2, _⟩ := coding_unique (b := after ++ missing) (b' := []) h1 h3 (by simp)
      have := congrArg List.length e2
      simp only [List.length_append] at this
      have hpos := List.length_pos_iff.2 hm
      omega

theorem fits_parts {n : Nat} {m line : Bytes} (h : RequestLineFits n (m ++ 32 :: line)) (hm : 32 ∉ m) :
    m.length ≤ n ∧ ((10 ∉ line → line.length ≤ n) ∧ ∀ l r, line = l ++ 10 :: r → 10 ∉ l → l.length ≤ n) := by
  obtain ⟨_, f2, f3⟩ := h
  refine ⟨?_, ?_, ?_⟩
  · by_cases hl : 10 ∈ line
    · obtain ⟨l, r, rfl, h1⟩ := List.eq_append_cons_of_mem hl
      have := f3 m l r rfl hm h1; omega
    · have := f2 m line rfl hm hl; omega
  · intro hl
    have := f2 m line rfl hm hl; omega
  · rintro l r rfl h1
    have := f3 m l r rfl hm h1; omega

theorem long_not_fits {n : Nat} {s : Bytes} (long : LongLine n s) : ¬ RequestLineFits n s := by
  intro f
  rcases long with ⟨h1, h2⟩ | ⟨m, line, rfl, hm, h1, h2⟩
  · by_cases hs : 32 ∈ s
    · obtain ⟨m, line, rfl, hm⟩ := List.eq_append_cons_of_mem hs
      have hl := (fits_parts f hm).1
      apply h2
      rw [List.take_append, List.mem_append]
      right
      rw [show n + 1 - m.length = (n - m.length) + 1 by omega, List.take_succ_cons]
      simp
    · have := f.1 hs; omega
  · obtain ⟨-, f1, f2⟩ := fits_parts f hm
    by_cases hl : 10 ∈ line
    · obtain ⟨l, r, rfl, hn⟩ := List.eq_append_cons_of_mem hl
      have := f2 l r rfl hn
      apply h2
      rw [List.take_append, List.mem_append]
      right
      rw [show n + 1 - l.length = (n - l.length) + 1 by omega, List.take_succ_cons]
      simp
    · have := f1 hl; omega

theorem good_acceptable {L : Limits} {h : Head} {path b : Bytes} (good : GoodHead L h path) : Acceptable L (h.render ++ b) := by
  refine ⟨h, b, rfl, good.ok, good.clean, good.noBareEmpty, good.fits, ?_⟩
  have := good.path
  rw [← Classical.not_not (a := Escapable h.target)]
  intro hn
  have hd := (Query.decode_none_iff h.target).2 (by simpa using hn)
  rw [UriDecode.Decode_eq] at hd
  rw [UriDecode.pct_of_unescapes this] at hd
  cases hd

/-- The results of parsing which the kinds of heads lead to. -/
theorem kinds_apart (F : Fold) {p : PState} (hp : Ready p) {s : Bytes} (fits : RequestLineFits (limits p).line s) (clean : CleanStream s) :
    (Acceptable (limits p) s → (∀ e, ¬ HeadFault (limits p) s e) ∧ ¬ HeadCrash (limits p) s ∧ ¬ HeadOpen (limits p) s) ∧
    (∀ e, HeadFault (limits p) s e → (∀ e', HeadFault (limits p) s e' → e = e') ∧ ¬ HeadCrash (limits p) s ∧ ¬ HeadOpen (limits p) s) ∧
    (HeadCrash (limits p) s → ¬ HeadOpen (limits p) s) := by
  have h := feed_outcome F p hp [s] (by simpa using (show RequestLineFits p.startLine.max s from fits)) (by simpa using clean)
  simp only [List.flatten_cons, List.flatten_nil, List.append_nil] at h
  obtain ⟨h1, h2, h3, h4⟩ := h
  refine ⟨fun ha => ?_, fun e he => ?_, fun hc ho => ?_⟩
  · obtain ⟨x, hx⟩ := h1.2 ha
    refine ⟨fun e he => ?_, fun hc => ?_, fun ho => ?_⟩
    · have := (h2 e).2 he; rw [hx] at this; cases this
    · have := h3.2 hc; rw [hx] at this; cases this
    · have := h4.2 ho; rw [hx] at this; cases this
  · have hx := (h2 e).2 he
    refine ⟨fun e' he' => ?_, fun hc => ?_, fun ho => ?_⟩
    · have := (h2 e').2 he'; rw [hx] at this; cases this; rfl
    · have := h3.2 hc; rw [hx] at this; cases this
    · have := h4.2 ho; rw [hx] at this; cases this
  · have hx := h3.2 hc
    have := h4.2 ho; rw [hx] at this; cases this

theorem good_stream {L : Limits} {h : Head} {path b : Bytes} (good : GoodHead L h path) :
    RequestLineFits L.line (h.render ++ b) ∧ CleanStream (h.render ++ b) ∧ Acceptable L (h.render ++ b) :=
  ⟨requestLineFits_render good.ok b good.fits.line, cleanStream_render good.ok good.clean b, good_acceptable good⟩

theorem sendable_good {F : Fold} {L : Limits} {T B : Nat} {s : Sending} (h : Sendable F L T B s) : GoodHead L s.head s.path :=
  ⟨h.ok, h.clean, h.noBareEmpty, h.fits, h.path⟩

/-- No kind begins with a well-formed request. -/
theorem kind_not_sendable {F : Fold} {p : PState} (hp : Ready p) {T B : Nat} {s : Sending} (h : Sendable F (limits p) T B s) (rest : Bytes)
    (kind : Kind) : ¬ kind.Of F (limits p) T B (s.bytes ++ rest) := by
  have good := sendable_good h
  intro hk
  have e : s.bytes ++ rest = s.head.render ++ (s.coded ++ rest) := by simp [Sending.bytes]
  rw [e] at hk
  obtain ⟨fits, clean, acc⟩ := good_stream (b := s.coded ++ rest) good
  obtain ⟨a1, a2, a3⟩ := (kinds_apart F hp fits clean).1 acc
  cases kind with
  | unfinished => exact a3 hk.2.2
  | faulty e => exact a1 e hk.2.2
  | tooLong => exact long_not_fits hk.2 fits
  | crashing => exact a2 hk.2.2
  | last h' path given =>
    obtain ⟨e, good', cut⟩ := hk
    obtain ⟨rfl, rfl⟩ := head_unique good.ok good'.ok e
    exact cut_not_framed h.framed h.body cut
  | garbled h' path given =>
    obtain ⟨e, good', hch, h1, h2⟩ := hk
    obtain ⟨rfl, rfl⟩ := head_unique good.ok good'.ok e
    cases h.framed with
    | sized hc => rw [hc] at hch; cases hch
    | chunked cs _ hc hb =>
      have h3 := h1 cs s.coded rest rfl hc
      have := h.body
      rw [hb] at this
      omega
  | outside =>
    generalize hs : s.head.render ++ (s.coded ++ rest) = w at hk fits clean
    cases hk with
    | line hf _ => exact hf fits
    | names _ hc => exact hc clean

open Classical in
/-- Nothing is of two kinds. -/
theorem kind_unique {F : Fold} {p : PState} (hp : Ready p) {T B : Nat} {s : Bytes} {kind kind' : Kind} (h : kind.Of F (limits p) T B s)
    (h' : kind'.Of F (limits p) T B s) : kind = kind' := by
  -- heads which are classified by the parser
  have key : ∀ {kind kind' : Kind}, RequestLineFits (limits p).line s → CleanStream s → kind.Of F (limits p) T B s →
      kind'.Of F (limits p) T B s → kind = kind' := by
    intro kind kind' fits clean h h'
    obtain ⟨k1, k2, k3⟩ := kinds_apart F hp fits clean
    have lastAcc : ∀ {hd path given}, Kind.Of F (limits p) T B s (.last hd path given) → Acceptable (limits p) s := by
      rintro hd path given ⟨rfl, good, _⟩
      exact good_acceptable good
    have garAcc : ∀ {hd path given}, Kind.Of F (limits p) T B s (.garbled hd path given) → Acceptable (limits p) s := by
      rintro hd path given ⟨rfl, good, _⟩
      exact good_acceptable good
    have notOut : ¬ Kind.Of F (limits p) T B s .outside := by
      intro hk
      cases hk with
      | line hf _ => exact absurd fits hf
      | names _ hc => exact absurd clean hc
    have lastGar : ∀ {hd path given hd' path' given'}, Kind.Of F (limits p) T B s (.last hd path given) → ¬ Kind.Of F (limits p) T B s (.garbled hd' path' given') := by
      rintro hd path given hd' path' given' ⟨rfl, good, cut⟩ ⟨e, good', hch, h1, h2⟩
      obtain ⟨rfl, rfl⟩ := head_unique good.ok good'.ok e
      cases cut with
      | short hc => rw [hc] at hch; cases hch
      | large hc => rw [hc] at hch; cases hch
      | chunked cs missing _ hc _ hB => have := h2 cs missing hc; omega
    have notLong : ¬ Kind.Of F (limits p) T B s .tooLong := fun hk => long_not_fits hk.2 fits
    cases kind <;> cases kind'
    case unfinished.unfinished => rfl
    case unfinished.faulty => exact absurd h.2.2 (k2 _ h'.2.2).2.2
    case unfinished.tooLong => exact absurd h' notLong
    case unfinished.crashing => exact absurd h.2.2 (k3 h'.2.2)
    case unfinished.last => exact absurd h.2.2 (k1 (lastAcc h')).2.2
    case unfinished.outside => exact absurd h' notOut
    case unfinished.garbled => exact absurd h.2.2 (k1 (garAcc h')).2.2
    case faulty.unfinished => exact absurd h'.2.2 (k2 _ h.2.2).2.2
    case faulty.faulty => rw [(k2 _ h.2.2).1 _ h'.2.2]
    case faulty.tooLong => exact absurd h' notLong
    case faulty.crashing => exact absurd h'.2.2 (k2 _ h.2.2).2.1
    case faulty.last => exact absurd h.2.2 ((k1 (lastAcc h')).1 _)
    case faulty.outside => exact absurd h' notOut
    case faulty.garbled => exact absurd h.2.2 ((k1 (garAcc h')).1 _)
    case tooLong.tooLong => rfl
    case tooLong.unfinished => exact absurd h notLong
    case tooLong.faulty => exact absurd h notLong
    case tooLong.crashing => exact absurd h notLong
    case tooLong.last => exact absurd h notLong
    case tooLong.outside => exact absurd h notLong
    case tooLong.garbled => exact absurd h notLong
    case crashing.unfinished => exact absurd h'.2.2 (k3 h.2.2)
    case crashing.faulty => exact absurd h.2.2 (k2 _ h'.2.2).2.1
    case crashing.tooLong => exact absurd h' notLong
    case crashing.crashing => rfl
    case crashing.last => exact absurd h.2.2 (k1 (lastAcc h')).2.1
    case crashing.outside => exact absurd h' notOut
    case crashing.garbled => exact absurd h.2.2 (k1 (garAcc h')).2.1
    case last.unfinished => exact absurd h'.2.2 (k1 (lastAcc h)).2.2
    case last.faulty => exact absurd h'.2.2 ((k1 (lastAcc h)).1 _)
    case last.tooLong => exact absurd h' notLong
    case last.crashing => exact absurd h'.2.2 (k1 (lastAcc h)).2.1
    case last.last =>
      obtain ⟨rfl, good, _⟩ := h
      obtain ⟨e, good', _⟩ := h'
      obtain ⟨rfl, rfl⟩ := head_unique good.ok good'.ok e
      rw [unescapes_unique good.path good'.path]
    case last.outside => exact absurd h' notOut
    case last.garbled => exact absurd h' (lastGar h)
    case garbled.unfinished => exact absurd h'.2.2 (k1 (garAcc h)).2.2
    case garbled.faulty => exact absurd h'.2.2 ((k1 (garAcc h)).1 _)
    case garbled.tooLong => exact absurd h' notLong
    case garbled.crashing => exact absurd h'.2.2 (k1 (garAcc h)).2.1
    case garbled.last => exact absurd h (lastGar h')
    case garbled.garbled =>
      obtain ⟨rfl, good, _⟩ := h
      obtain ⟨e, good', _⟩ := h'
      obtain ⟨rfl, rfl⟩ := head_unique good.ok good'.ok e
      rw [unescapes_unique good.path good'.path]
    case garbled.outside => exact absurd h' notOut
    all_goals exact absurd h notOut
  by_cases fits : RequestLineFits (limits p).line s
  · by_cases clean : CleanStream s
    · exact key fits clean h h'
    · have only : ∀ {kind : Kind}, kind.Of F (limits p) T B s → kind = .outside := by
        intro kind h
        cases kind with
        | unfinished => exact absurd h.2.1 clean
        | faulty e => exact absurd h.2.1 clean
        | tooLong => exact absurd fits (long_not_fits h.2)
        | crashing => exact absurd h.2.1 clean
        | last hd path given =>
          obtain ⟨rfl, good, _⟩ := h
          exact absurd (good_stream good).2.1 clean
        | garbled hd path given =>
          obtain ⟨rfl, good, _⟩ := h
          exact absurd (good_stream good).2.1 clean
        | outside => rfl
      rw [only h, only h']
  · have only : ∀ {kind : Kind}, kind.Of F (limits p) T B s → kind = if 7 ≤ (limits p).line ∧ LongLine (limits p).line s then .tooLong else .outside := by
      intro kind h
      cases kind with
      | unfinished => exact absurd h.1 fits
      | faulty e => exact absurd h.1 fits
      | tooLong => rw [if_pos (show 7 ≤ (limits p).line ∧ LongLine (limits p).line s from h)]
      | crashing => exact absurd h.1 fits
      | last hd path given =>
        obtain ⟨rfl, good, _⟩ := h
        exact absurd (good_stream good).1 fits
      | garbled hd path given =>
        obtain ⟨rfl, good, _⟩ := h
        exact absurd (good_stream good).1 fits
      | outside =>
        cases h with
        | line _ hn => rw [if_neg hn]
        | names hf _ => exact absurd hf fits
    rw [only h, only h']

/-- The well-formed requests of a stream, and what comes after them, are determined by the stream. -/
theorem stream_unique {F : Fold} {p : PState} (hp : Ready p) {T B : Nat} {tail tail' : Bytes} {kind kind' : Kind}
    (h : kind.Of F (limits p) T B tail) (h' : kind'.Of F (limits p) T B tail') : ∀ (ss ss' : List Sending),
    (∀ s ∈ ss, Sendable F (limits p) T B s) → (∀ s ∈ ss', Sendable F (limits p) T B s) →
    ss.flatMap Sending.bytes ++ tail = ss'.flatMap Sending.bytes ++ tail' → ss = ss' ∧ tail = tail' ∧ kind = kind' := by
  intro ss
  induction ss with
  | nil =>
    intro ss' _ ok' e
    cases ss' with
    | nil =>
      have e' : tail = tail' := by simpa using e
      subst e'
      exact ⟨rfl, rfl, kind_unique hp h h'⟩
    | cons s' ss' =>
      simp only [List.flatMap_nil, List.nil_append, List.flatMap_cons, List.append_assoc] at e
      rw [e] at h
      exact absurd h (kind_not_sendable hp (ok' s' (by simp)) _ _)
  | cons s ss ih =>
    intro ss' ok ok' e
    cases ss' with
    | nil =>
      simp only [List.flatMap_nil, List.nil_append, List.flatMap_cons, List.append_assoc] at e
      rw [← e] at h'
      exact absurd h' (kind_not_sendable hp (ok s (by simp)) _ _)
    | cons s' ss' =>
      simp only [List.flatMap_cons, List.append_assoc] at e
      obtain ⟨rfl, e'⟩ := sending_unique (ok s (by simp)) (ok' s' (by simp)) e
      obtain ⟨rfl, e2⟩ := ih ss' (fun x hx => ok x (by simp [hx])) (fun x hx => ok' x (by simp [hx])) e'
      exact ⟨rfl, e2⟩

end Indigo.Parser
