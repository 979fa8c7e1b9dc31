/-
A complete head is acceptable or has one of the specified faults.
-/
import Verif.Proofs.Fault

namespace Indigo.Parser
open Indigo.Spec

/-- The text behind the colon, as a field. -/
theorem field_of_raw (name raw : Bytes) (last : Byte) (v : Bytes) (hraw : raw = v ++ [last]) (h58 : 58 ∉ name)
    (h13 : 13 ∉ name) (h10 : 10 ∉ name) (hlf : 10 ∉ raw) (hb : last ≠ 32)
    (hlen : lower name = b!"content-length" → ∀ c ∈ (if last = 13 then v else raw), c = 32 ∨ isDigit c = true) :
    ∃ f : Field, f.name = name ∧ f.OK ∧ f.rawLength = raw.length ∧ (f.crlf = false → f.value ≠ []) ∧
      ∀ rest, f.render ++ rest = name ++ 58 :: (raw ++ 10 :: rest) := by
  obtain ⟨k, w, hw, hw1, _⟩ := blanks_split raw
  have hwne : w ≠ [] := by
    rintro rfl
    rw [hraw, List.append_nil] at hw
    have : last ∈ List.replicate k (32 : Byte) := by rw [← hw]; simp
    exact hb (List.mem_replicate.1 this).2
  have hwl : w.getLast? = some last := by
    have : raw.getLast? = some last := by rw [hraw]; simp
    rw [hw, List.getLast?_append] at this
    rw [List.getLast?_eq_some_getLast hwne] at this ⊢
    simpa using this
  have hwlf : 10 ∉ w := fun h => hlf (by rw [hw]; simp [h])
  by_cases hl : last = 13
  · subst hl
    obtain ⟨u, rfl⟩ : ∃ u, w = u ++ [13] := by
      refine ⟨w.dropLast, ?_⟩
      have := List.dropLast_concat_getLast hwne
      rw [List.getLast?_eq_some_getLast hwne] at hwl
      simp at hwl
      rw [hwl] at this
      exact this.symm
    have hv : v = List.replicate k 32 ++ u := by
      rw [hraw, ← List.append_assoc] at hw
      exact (List.append_inj' hw rfl).1
    refine ⟨⟨name, k, u, true⟩, rfl, ⟨h58, name_ok h13 h10, fun h => hwlf (by simp [h]), ?_, nofun, ?_⟩, ?_, nofun, ?_⟩
    · cases u with
      | nil => simp
      | cons x xs => simpa using hw1
    · intro hn c hc
      have hn : lower name = b!"content-length" := by simpa [Field.isLength, Field.named] using hn
      have := hlen hn c
      rw [if_pos rfl, hv] at this
      exact this (List.mem_append_right _ hc)
    · rw [hw]; simp [Field.rawLength]; omega
    · intro rest
      rw [render_append, hw]
      simp [eol]
  · refine ⟨⟨name, k, w, false⟩, rfl, ⟨h58, name_ok h13 h10, hwlf, hw1, ?_, ?_⟩, ?_, fun _ => hwne, ?_⟩
    · intro _; rw [hwl]; simpa using hl
    · intro hn c hc
      have hn : lower name = b!"content-length" := by simpa [Field.isLength, Field.named] using hn
      have := hlen hn c
      rw [if_neg hl, hw] at this
      exact this (List.mem_append_right _ hc)
    · rw [hw]; simp [Field.rawLength]
    · intro rest
      rw [render_append, hw]
      simp [eol]

/-- The first byte which is neither a digit nor a blank. -/
theorem first_bad (raw : Bytes) : (∀ c ∈ raw, c = 32 ∨ isDigit c = true) ∨
    ∃ ds c rest, raw = ds ++ c :: rest ∧ (∀ d ∈ ds, d = 32 ∨ isDigit d = true) ∧ c ≠ 32 ∧ isDigit c = false := by
  induction raw with
  | nil => left; simp
  | cons c cs ih =>
    by_cases hc : c = 32 ∨ isDigit c = true
    · rcases ih with h | ⟨ds, x, rest, rfl, h1, h2⟩
      · left; intro d hd; simp at hd; rcases hd with rfl | hd
        · exact hc
        · exact h d hd
      · right
        refine ⟨c :: ds, x, rest, rfl, ?_, h2⟩
        intro d hd; simp at hd; rcases hd with rfl | hd
        · exact hc
        · exact h1 d hd
    · right
      refine ⟨[], c, cs, rfl, by simp, ?_⟩
      rw [not_or] at hc
      exact ⟨hc.1, by simpa using hc.2⟩

/-- The lines of a header section are within the limits, after others. -/
structure SectionFits (L : Limits) (a b n : Nat) (fs : List Field) : Prop where
  ok : ∀ f ∈ fs, f.OK
  clean : ∀ f ∈ fs, 13 ∉ f.name ∧ 10 ∉ f.name
  bare : ∀ f ∈ fs, f.isLength = false → f.crlf = false → f.value ≠ []
  names : a + (fs.map (fun f => f.name.length)).sum ≤ L.names
  values : b + ((fs.filter (fun f => !f.isLength)).map Field.rawLength).sum ≤ L.values
  number : n + fs.length ≤ L.number
  value : ∀ f ∈ fs, f.isLength = false → f.rawLength ≤ L.value

theorem section_or_fault {s : Bytes} (h : Section s) : ∀ (L : Limits) (a b n : Nat), a ≤ L.names → b ≤ L.values → n ≤ L.number →
    (∃ fs c extra, s = fs.flatMap Field.render ++ (eol c ++ extra) ∧ SectionFits L a b n fs) ∨
      ∃ e, SectionFault L a b n s e := by
  induction h with
  | lf rest =>
    intro L a b n ha hb hn
    exact .inl ⟨[], false, rest, rfl, by simp, by simp, by simp, by simpa, by simpa, by simpa, by simp⟩
  | cr c rest =>
    intro L a b n ha hb hn
    by_cases hc : c = 10
    · subst hc
      exact .inl ⟨[], true, rest, rfl, by simp, by simp, by simp, by simpa, by simpa, by simpa, by simp⟩
    · exact .inr ⟨_, .noEnd c rest hc⟩
  | field name v last rest h13 h10 h58 hv hl1 hl2 _ ih =>
    intro L a b n ha hb hn
    by_cases hnames : a + name.length ≤ L.names
    case neg => exact .inr ⟨_, .names name _ h13 h10 h58 (by omega)⟩
    by_cases hnumber : n + 1 ≤ L.number
    case neg => exact .inr ⟨_, .number name _ h13 h10 h58 hnames (by omega)⟩
    have hlf : 10 ∉ v ++ [last] := by simp [hv, hl1]
    have hshape : v ++ last :: 10 :: rest = (v ++ [last]) ++ 10 :: rest := by simp
    have go : ∀ f : Field, f.name = name → f.OK → f.rawLength = (v ++ [last]).length → (f.crlf = false → f.value ≠ []) →
        (∀ rest, f.render ++ rest = name ++ 58 :: ((v ++ [last]) ++ 10 :: rest)) →
        (f.isLength = false → f.rawLength ≤ L.value ∧ b + f.rawLength ≤ L.values) →
        (∃ fs c extra, name ++ 58 :: (v ++ last :: 10 :: rest) = fs.flatMap Field.render ++ (eol c ++ extra) ∧ SectionFits L a b n fs) ∨
          ∃ e, SectionFault L a b n (name ++ 58 :: (v ++ last :: 10 :: rest)) e := by
      intro f e1 e2 e3 e4 e5 e6
      have hb' : b + (if f.isLength then 0 else f.rawLength) ≤ L.values := by
        cases hi : f.isLength with
        | true => simpa using hb
        | false => exact (e6 hi).2
      rcases ih L (a + name.length) (b + if f.isLength then 0 else f.rawLength) (n + 1) hnames hb' hnumber with
        ⟨fs, c, extra, hs, hfit⟩ | ⟨e, he⟩
      · left
        refine ⟨f :: fs, c, extra, ?_, ?_, ?_, ?_, ?_, ?_, ?_, ?_⟩
        · rw [hshape, ← e5, hs]; simp
        · intro g hg; simp at hg; rcases hg with rfl | hg
          · exact e2
          · exact hfit.ok g hg
        · intro g hg; simp at hg; rcases hg with rfl | hg
          · rw [e1]; exact ⟨h13, h10⟩
          · exact hfit.clean g hg
        · intro g hg; simp at hg; rcases hg with rfl | hg
          · exact fun _ => e4
          · exact hfit.bare g hg
        · have := hfit.names; simp [e1]; omega
        · have := hfit.values
          cases hi : f.isLength <;> simp [hi] at this ⊢ <;> omega
        · have := hfit.number; simp; omega
        · intro g hg; simp at hg; rcases hg with rfl | hg
          · exact fun hi => (e6 hi).1
          · exact hfit.value g hg
      · right
        refine ⟨e, ?_⟩
        rw [hshape, ← e5]
        refine .next f rest e e2 (by rw [e1]; exact h13) (by rw [e1]; exact h10) (by rw [e1]; exact hnames) hnumber ?_ (by rw [e1]; exact he)
        exact fun hi => ⟨(e6 hi).1, (e6 hi).2, e4⟩
    by_cases hcl : lower name = b!"content-length"
    · have hgood : (∀ c ∈ (if last = 13 then v else v ++ [last]), c = 32 ∨ isDigit c = true) →
          (∃ fs c extra, name ++ 58 :: (v ++ last :: 10 :: rest) = fs.flatMap Field.render ++ (eol c ++ extra) ∧ SectionFits L a b n fs) ∨
          ∃ e, SectionFault L a b n (name ++ 58 :: (v ++ last :: 10 :: rest)) e := by
        intro hg
        obtain ⟨f, e1, e2, e3, e4, e5⟩ := field_of_raw name (v ++ [last]) last v rfl h58 h13 h10 hlf (fun h => hl2 h.symm) (fun _ => hg)
        refine go f e1 e2 e3 e4 e5 ?_
        intro hi
        simp [Field.isLength, Field.named, e1, hcl] at hi
      rcases first_bad (v ++ [last]) with hg | ⟨ds, c, r, hraw, hds, hc1, hc2⟩
      · apply hgood
        intro c hc
        apply hg
        split at hc
        · exact List.mem_append_left _ hc
        · exact hc
      · have hc10 : c ≠ 10 := by
          rintro rfl
          exact hlf (by rw [hraw]; simp)
        by_cases hc13 : c = 13
        · subst hc13
          cases r with
          | nil =>
            have := List.append_inj' hraw rfl
            simp at this
            obtain ⟨rfl, rfl⟩ := this
            exact hgood (by rw [if_pos rfl]; exact hds)
          | cons x r =>
            have hx : x ≠ 10 := by
              rintro rfl
              exact hlf (by rw [hraw]; simp)
            right
            refine ⟨Status.ErrBadRequest, ?_⟩
            rw [hshape, hraw]
            simp only [List.append_assoc, List.cons_append]
            exact .lengthEnd name ds x _ h13 h10 h58 hnames hnumber hcl hds hx
        · right
          refine ⟨Status.ErrBadRequest, ?_⟩
          rw [hshape, hraw]
          simp only [List.append_assoc, List.cons_append]
          exact .length name ds c _ h13 h10 h58 hnames hnumber hcl hds hc1 hc2 hc13 hc10
    · by_cases hbig : L.value < (v ++ [last]).length ∨ L.values < b + (v ++ [last]).length
      · right
        refine ⟨Status.ErrHeaderFieldsTooLarge, ?_⟩
        rw [hshape]
        exact .value name _ rest h13 h10 h58 hnames hnumber hcl hlf hbig
      · obtain ⟨f, e1, e2, e3, e4, e5⟩ := field_of_raw name (v ++ [last]) last v rfl h58 h13 h10 hlf (fun h => hl2 h.symm)
          (fun h => absurd h hcl)
        refine go f e1 e2 e3 e4 e5 ?_
        intro _
        rw [e3]
        omega

theorem line_or_fault {m line : Bytes} (h10 : 10 ∉ line) (hlast : line.getLast? ≠ some 32) :
    (∃ h : Head, m = methodName h.method ∧ line = fullLine h ∧ h.OK ∧ h.fields = [] ∧ Escapable h.target) ∨
      ∃ e, LineFault m line e := by
  by_cases hm0 : m = []
  · subst hm0; exact .inr ⟨_, .noMethod line⟩
  by_cases hm : Method.parse m = .Unknown
  · refine .inr ⟨_, .unknownMethod m line hm0 ?_⟩
    rintro k rfl
    by_cases hk : k = .Unknown
    · subst hk; exact hm0 rfl
    · exact hk ((methodName_facts k hk).2.2.symm.trans hm)
  have hmk := (Props.C15_method_recognised_iff m _ hm).1 rfl
  generalize Method.parse m = k at hm hmk
  subst hmk
  cases hc : cutLast SP line with
  | none =>
    refine .inr ⟨_, .noVersion k line hm ?_⟩
    intro h32
    obtain ⟨a, b, e⟩ := List.append_of_mem h32
    have : ∃ a b, line = a ++ 32 :: b ∧ 32 ∉ b := by
      clear hc e h10 hlast hm0 hm
      induction line with
      | nil => simp at h32
      | cons x xs ih =>
        by_cases hx : 32 ∈ xs
        · obtain ⟨a, b, rfl, hb⟩ := ih hx
          exact ⟨x :: a, b, rfl, hb⟩
        · simp [hx] at h32
          exact ⟨[], xs, by rw [h32]; rfl, hx⟩
    obtain ⟨a, b, e, hb⟩ := this
    rw [e, show SP = 32 from rfl, cutLast_append hb] at hc
    cases hc
  | some x =>
    obtain ⟨a, b⟩ := x
    obtain ⟨rfl, h32⟩ := cutLast_some hc
    rw [show SP = 32 from rfl] at *
    have hbne : b ≠ [] := by
      rintro rfl
      exact hlast (by simp)
    obtain ⟨t, q, rfl, h63⟩ : ∃ t q, a = t ++ queryPart q ∧ 63 ∉ t := by
      cases hq : cut 63 a with
      | none => exact ⟨a, none, by simp [queryPart], cut_none.1 hq⟩
      | some y =>
        obtain ⟨t, q⟩ := y
        obtain ⟨e1, e2⟩ := cut_some hq
        exact ⟨t, some q, e1, e2⟩
    by_cases ht : t = []
    · subst ht
      exact .inr ⟨_, .noTarget k q b hm h32 hbne⟩
    by_cases hesc : Escapable t
    case neg => exact .inr ⟨_, .badEscape k t q b hm ht h63 hesc h32 hbne⟩
    obtain ⟨v, crlf, rfl, hv⟩ : ∃ v crlf, b = v ++ (if crlf = true then [13] else []) ∧ (crlf = false → v ≠ [] ∧ v.getLast? ≠ some 13) := by
      by_cases hl : b.getLast? = some 13
      · refine ⟨b.dropLast, true, ?_, nofun⟩
        have := List.dropLast_concat_getLast hbne
        rw [List.getLast?_eq_some_getLast hbne] at hl
        simp at hl; rw [hl] at this; exact this.symm
      · exact ⟨b, false, by simp, fun _ => ⟨hbne, hl⟩⟩
    have h32v : 32 ∉ v := fun h => h32 (by simp [h])
    by_cases hver : ∃ p, IsVersion v p
    · left
      refine ⟨⟨k, t, q, v, crlf, [], true⟩, rfl, by simp [fullLine, Head.line], ⟨hm, ⟨ht, ?_, h63⟩, ?_, ⟨hver, h32v, ?_⟩, by simp⟩, rfl, hesc⟩
      · intro h; exact h10 (by simp [h])
      · rintro q' rfl h
        exact h10 (by simp [queryPart, h])
      · intro h; exact h10 (by simp [h])
    · exact .inr ⟨_, .badVersion k t q v crlf hm ht h63 hesc h32v hv hver⟩

/-- A complete head is acceptable or has a fault. -/
theorem complete_or_fault {L : Limits} {s : Bytes} (h : CompleteHead L s) : Acceptable L s ∨ ∃ e, HeadFault L s e := by
  obtain ⟨m, line, rest, rfl, h1, h2, h3, h4, h5⟩ := h
  rcases line_or_fault (m := m) h2 h3 with ⟨hd, rfl, rfl, ok, hfields, hesc⟩ | ⟨e, he⟩
  case inr => exact .inr ⟨e, .line m line rest e h1 h2 h4 he⟩
  have hshape : ∀ rest, fullLine hd ++ 10 :: rest = hd.line ++ eol hd.crlf ++ rest := by
    intro rest; simp [fullLine, eol_eq]
  rw [fullLine_length] at h4
  rcases section_or_fault h5 L 0 0 0 (Nat.zero_le _) (Nat.zero_le _) (Nat.zero_le _) with ⟨fs, c, extra, rfl, hfit⟩ | ⟨e, he⟩
  · left
    refine ⟨{ hd with fields := fs, lastCrlf := c }, extra, ?_, ⟨ok.method, ok.target, ok.query, ok.version, hfit.ok⟩, hfit.clean, hfit.bare, ?_, hesc⟩
    · rw [hshape]; simp [Head.render, Head.line]
    · exact ⟨h4, by simpa using hfit.names, by simpa using hfit.values, by simpa using hfit.number, hfit.value⟩
  · right
    refine ⟨e, ?_⟩
    rw [hshape]
    exact .fields hd rest e ok hesc h4 he

/-- Faults are reported with their errors, however the stream is cut into segments. -/
theorem feed_fault (F : Fold) (p : PState) (hp : Ready p) (segs : List Bytes) {e : Status.HTTPError}
    (fits : RequestLineFits p.startLine.max segs.flatten) (clean : CleanStream segs.flatten) (fault : HeadFault (limits p) segs.flatten e) :
    ∃ p' rest, feed F p segs = (p', .error e, rest) := by
  have hfeed := feed_eq F segs p (hp.cond fits clean)
  have hx := head_fault F hp fault
  rw [hp.state] at hfeed
  rcases hf : feed F p segs with ⟨p', r, rest⟩
  rw [hf] at hfeed
  cases r with
  | completed ex =>
    simp only [FeedRel] at hfeed
    rw [hfeed] at hx
    cases hx
  | pending => exact absurd (hfeed.1.symm.trans hx) nofun
  | panic => exact absurd (hfeed.1.symm.trans hx) nofun
  | error e' =>
    have := hfeed.1.symm.trans hx
    cases this
    exact ⟨p', rest, rfl⟩

end Indigo.Parser
