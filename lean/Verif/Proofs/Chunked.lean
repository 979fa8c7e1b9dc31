/-
Facts about the reference decoder of the chunked coding.
-/
import Verif.Spec.Chunked

namespace Indigo.Spec

theorem cfeed_append (t : Bool) (d : Bytes) : ∀ (s : CS) (d' body after : Bytes),
    crun t s (d ++ d') = some (body, after) →
    ((cfeed t s d).2.2.2 = none ∧ (cfeed t s d).2.2.1 = [] ∧ ∃ body', body = (cfeed t s d).2.1 ++ body' ∧
      crun t (cfeed t s d).1 d' = some (body', after)) ∨
    ((cfeed t s d).2.2.2 = some .eof ∧ body = (cfeed t s d).2.1 ∧ (cfeed t s d).2.2.1 ++ d' = after ∧
      (cfeed t s d).1 = refParser.init) := by
  induction d with
  | nil => intro s d' body after h; exact .inl ⟨rfl, rfl, body, rfl, h⟩
  | cons b d ih =>
    intro s d' body after h
    simp only [List.cons_append, crun] at h
    simp only [cfeed]
    cases hs : cstep t s b with
    | bad => simp [hs] at h
    | done =>
      simp only [hs, Option.some.injEq, Prod.mk.injEq] at h
      exact .inr ⟨rfl, h.1.symm, h.2, rfl⟩
    | next s' out =>
      simp only [hs, Option.map_eq_some_iff, Prod.mk.injEq] at h
      obtain ⟨⟨b1, a1⟩, h1, h2, h3⟩ := h
      simp only at h2 h3
      subst h3
      rcases ih s' d' b1 a1 h1 with ⟨g1, g2, body', g3, g4⟩ | ⟨g1, g2, g3, g4⟩
      · exact .inl ⟨g1, g2, body', by rw [← h2, g3]; simp, g4⟩
      · exact .inr ⟨g1, by rw [← h2, g2], g3, g4⟩

/-- The contract assumed of the external decoder is met by the reference decoder. -/
theorem ref_decodes : Decodes refParser refDecoding where
  step := by
    intro st t d d' body after h _
    rcases cfeed_append t d st d' body after h with ⟨h1, h2, body', h3, h4⟩ | h
    · refine .inl ⟨h1, body', h3, ?_⟩
      show crun t _ (_ ++ d') = _
      rw [show (refParser.parse st d t).2.2.1 = [] from h2]
      exact h4
    · exact .inr h
  empty := by
    intro st t input body after h
    exact ⟨rfl, rfl, h⟩
  nonempty := by
    intro st t body after h
    simp [refDecoding, crun] at h

theorem crun_digits (t : Bool) (ds : Bytes) : ∀ (n m : Nat) (any : Bool) (rest : Bytes),
    ds.foldl (fun acc b => acc.bind fun n => (chunkDigit? b).map fun v => 16 * n + v) (some n) = some m →
    crun t (.size n any) (ds ++ rest) = crun t (.size m (any || !ds.isEmpty)) rest := by
  induction ds with
  | nil => intro n m any rest h; simp at h; simp [h]
  | cons b ds ih =>
    intro n m any rest h
    have hnone : ∀ l : Bytes,
        l.foldl (fun acc b => acc.bind fun n => (chunkDigit? b).map fun v => 16 * n + v) (none : Option Nat) = none := by
      intro l; induction l with
      | nil => rfl
      | cons _ _ ih => simpa using ih
    simp only [List.foldl_cons, Option.bind_some] at h
    cases hd : chunkDigit? b with
    | none => rw [hd, Option.map_none, hnone] at h; simp at h
    | some v =>
      rw [hd, Option.map_some] at h
      simp only [List.cons_append, crun, cstep, hd]
      rw [ih _ m true rest h]
      simp

theorem crun_data (t : Bool) (c : Bytes) : ∀ (n : Nat) (rest : Bytes), c.length = n + 1 →
    crun t (.data n) (c ++ rest) = (crun t .dataCR rest).map (fun r => (c ++ r.1, r.2)) := by
  induction c with
  | nil => intro n rest h; simp at h
  | cons b c ih =>
    intro n rest h
    cases n with
    | zero =>
      have : c = [] := by simpa using h
      subst this
      simp [crun, cstep]
    | succ n =>
      simp only [List.cons_append, crun, cstep]
      rw [ih n rest (by simpa using h)]
      simp [Function.comp_def]

theorem crun_size_line (t : Bool) {ds : Bytes} {n : Nat} (h : chunkSize ds = some n) (rest : Bytes) :
    crun t (.size 0 false) (ds ++ [13, 10] ++ rest) =
      match n with
      | 0 => crun t .trailer rest
      | n + 1 => crun t (.data n) rest := by
  have hne : ds ≠ [] := by intro he; subst he; simp [chunkSize] at h
  have hf : ds.foldl (fun acc b => acc.bind fun n => (chunkDigit? b).map fun v => 16 * n + v) (some 0) = some n := by
    cases ds with
    | nil => exact absurd rfl hne
    | cons b ds => exact h
  rw [List.append_assoc, crun_digits t ds 0 n false _ hf]
  have hh : chunkDigit? 13 = none := by decide
  have hemp : ds.isEmpty = false := by cases ds <;> simp at hne ⊢
  cases n with
  | zero => simp [crun, cstep, hh, hemp]
  | succ n => simp [crun, cstep, hh, hemp]

/-- The reference decoder reads every chunked coding of a sequence of chunks as their concatenation, and stops
exactly where the coding ends. -/
theorem crun_coding (t : Bool) {cs : List Bytes} {stream : Bytes} (h : ChunkedCoding cs stream) (after : Bytes) :
    crun t (.size 0 false) (stream ++ after) = some (cs.flatten, after) := by
  induction h with
  | last hd =>
    rw [List.append_assoc, crun_size_line t hd]
    simp [crun, cstep]
  | @chunk ds c cs rest hd hne _ ih =>
    have h1 : ds ++ [13, 10] ++ c ++ [13, 10] ++ rest ++ after = ds ++ [13, 10] ++ (c ++ ([13, 10] ++ (rest ++ after))) := by
      simp
    rw [h1, crun_size_line t hd]
    cases c with
    | nil => exact absurd rfl hne
    | cons b c =>
      simp only [List.length_cons]
      rw [crun_data t (b :: c) c.length _ (by simp)]
      have : crun t .dataCR ([13, 10] ++ (rest ++ after)) = crun t (.size 0 false) (rest ++ after) := by
        simp [crun, cstep]
      rw [this, ih]
      simp

end Indigo.Spec
