/-
Properties C12 and C13 for arbitrary queries: what is delivered and what is reported, without reference to the
parser.
-/
import Verif.Proofs.QueryTotal
import Verif.Props.Query

namespace Indigo.Props
open Indigo.Spec Indigo.Query

/-- Error of a query made of the pieces `ps`: some piece has an empty key before `=`. -/
def piecesError (ps : List Bytes) : Option Status.HTTPError :=
  if ∃ p ∈ ps, p.head? = some 61 then some Status.ErrBadQuery else none

theorem parsePairs_pieces (ps : List Bytes) (amp : Bool) (e : Bytes) (hp : ∀ p ∈ ps, 38 ∉ p)
    (hl : amp = false → ps.getLast? ≠ some []) (hne : amp = true → ps ≠ [])
    (he : Unescapes e (joinAmp ps ++ if amp then [38] else [])) :
    (parsePairs e).1 = (ps.takeWhile (fun p => p.head? != some 61)).map (fun p => pair (pieceParam p)) ∧
    (parsePairs e).2 = piecesError ps := by
  have key : (scan .key (joinAmp ps ++ if amp then [38] else []) true [] []).1 =
        (ps.takeWhile (fun p => p.head? != some 61)).map (fun p => pair (pieceParam p)) ∧
      (scan .key (joinAmp ps ++ if amp then [38] else []) true [] []).2 = piecesError ps := by
    cases amp with
    | false =>
      have := scan_pieces ps [] hp (hl rfl)
      simpa [piecesError] using this
    | true =>
      have hj : ∀ ps : List Bytes, ps ≠ [] → joinAmp ps ++ [38] = joinAmp (ps ++ [[]]) := by
        intro ps h
        induction ps with
        | nil => exact absurd rfl h
        | cons p ps ih =>
          cases ps with
          | nil => simp [joinAmp]
          | cons q qs =>
            have := ih (by simp)
            simp only [joinAmp, List.cons_append] at this ⊢
            rw [← this]; simp
      have := scan_trailing ps [] hp (hne rfl)
      rw [if_pos rfl, hj ps (hne rfl)]
      simpa [piecesError] using this
  unfold parsePairs
  split
  · rename_i h0
    have : e = [] := List.eq_nil_of_length_eq_zero h0
    subst this
    generalize joinAmp ps ++ (if amp then [38] else []) = t at he key
    cases he
    simpa [scan] using key
  · rw [UriDecode.Decode_eq, UriDecode.pct_of_unescapes he]
    exact key

/-- C12 for every query: whatever happened before on the connection, whatever the query is - any number of
pieces `ps` joined by `&`, where pieces contain any bytes but `&` and may be empty, possibly followed by a
superfluous `&`, percent-encoded in any way (or in a way the code takes for an encoding, `Unescapes`) - the first access delivers, in order, the parameters denoted by the
pieces up to the first one with an empty key before `=`, and reports an error if and only if there is one.
(Every text is of this form, `C12_pieces_exist`; only queries with broken escapes are left, `C13_bad_escape`.) -/
theorem C12_every_query (F : Fold) (ops : List QueryOp) (ps : List Bytes) (amp : Bool) (e : Bytes)
    (noAmp : ∀ p ∈ ps, 38 ∉ p) (last : amp = false → ps.getLast? ≠ some []) (some_ : amp = true → ps ≠ [])
    (encoded : Unescapes e (joinAmp ps ++ if amp then [38] else [])) :
    (((queryRun F ops).set e).unwrap).2.1.map (fun q => (q.Key, q.Value)) =
      (ps.takeWhile (fun p => p.head? != some 61)).map pieceParam ∧
    ((((queryRun F ops).set e).unwrap).2.2 =
      if ∃ p ∈ ps, p.head? = some 61 then some Status.ErrBadQuery else none) := by
  obtain ⟨h1, h2⟩ := set_doParse F ops e
  obtain ⟨k1, k2⟩ := parsePairs_pieces ps amp e noAmp last some_ encoded
  simp only [Query.unwrap, h1, foldl_add_pairs, h2, k1, k2]
  constructor
  · simp [pair]
  · rfl

/-- Every text is of the form assumed by `C12_every_query`. -/
theorem C12_pieces_exist (t : Bytes) : ∃ ps amp, (∀ p ∈ ps, 38 ∉ p) ∧ (amp = false → ps.getLast? ≠ some []) ∧
    (amp = true → ps ≠ []) ∧ t = joinAmp ps ++ (if amp then [38] else []) := by
  obtain ⟨ps, h1, h2, h3⟩ := exists_pieces t
  by_cases hl : ps.getLast? = some []
  · obtain ⟨ds, rfl⟩ : ∃ ds, ps = ds ++ [[]] := by
      obtain ⟨ds, h⟩ := List.getLast?_eq_some_iff.1 hl
      exact ⟨ds, h⟩
    cases ds with
    | nil => exact ⟨[], false, by simp, by simp, by simp, by simpa [joinAmp] using h2⟩
    | cons d ds =>
      refine ⟨d :: ds, true, fun p hp => h1 p (by simp only [List.mem_append]; exact .inl hp), by simp, by simp, ?_⟩
      rw [h2]
      clear h1 h2 h3 hl
      induction ds generalizing d with
      | nil => simp [joinAmp]
      | cons x xs ih =>
        have := ih x
        simp only [joinAmp, List.cons_append] at this ⊢
        rw [this]; simp
  · exact ⟨ps, false, h1, fun _ => hl, by simp, by simp [h2]⟩

/-- `Get` on a query with an empty key before `=` reports it, whatever the key asked for - at the first access. -/
theorem C13_empty_key_Get_partial (F : Fold) (ops : List QueryOp) (ps : List Bytes) (e k : Bytes)
    (noAmp : ∀ p ∈ ps, 38 ∉ p) (last : ps.getLast? ≠ some [])
    (bad : ∃ p ∈ ps, p.head? = some 61) (encoded : Unescapes e (joinAmp ps)) :
    (((queryRun F ops).set e).get F k).2 = .error (.http Status.ErrBadQuery) := by
  obtain ⟨h1, h2⟩ := set_doParse F ops e
  have := (parsePairs_pieces ps false e noAmp (fun _ => last) (by simp) (by simpa using encoded)).2
  simp only [Query.get, h1, this, piecesError, if_pos bad]

/-- C13: a query with a percent sign that is not followed by two more bytes is reported by the first access,
both by `Unwrap`, which delivers nothing, and by `Get`. Missing: later accesses. -/
theorem C13_bad_escape_partial (F : Fold) (ops : List QueryOp) (raw : Bytes) (bad : ¬ Escapable raw) :
    (((queryRun F ops).set raw).unwrap).2 = ([], some Status.ErrURIDecoding) ∧
    ∀ k, (((queryRun F ops).set raw).get F k).2 = .error (.http Status.ErrURIDecoding) := by
  obtain ⟨h1, h2⟩ := set_doParse F ops raw
  have hp : parsePairs raw = ([], some Status.ErrURIDecoding) := by
    unfold parsePairs
    rw [if_neg ?_, (decode_none_iff raw).2 bad]
    intro h
    rw [List.eq_nil_of_length_eq_zero h] at bad
    exact bad .nil
  constructor
  · simp only [Query.unwrap, h1, hp, foldl_add_pairs, h2]; rfl
  · intro k; simp only [Query.get, h1, hp]

/-- C13: a query whose escapes can be decoded is rejected only for an empty key before `=`; and then not
only the first but every later access delivers the same parameters without an error. -/
theorem C13_wellformed_accepted (F : Fold) (ops later : List QueryOp) (ps : List Bytes) (amp : Bool) (e : Bytes)
    (noAmp : ∀ p ∈ ps, 38 ∉ p) (last : amp = false → ps.getLast? ≠ some []) (some_ : amp = true → ps ≠ [])
    (encoded : Unescapes e (joinAmp ps ++ if amp then [38] else []))
    (good : ∀ p ∈ ps, p.head? ≠ some 61) (same : ∀ op ∈ later, ∀ r, op ≠ .set r) :
    ∃ qs : List Pair, qs.map (fun q => (q.Key, q.Value)) = ps.map pieceParam ∧
      (later.foldl (fun q op =>
        match op with
        | .set raw => q.set raw
        | .get k => (q.get F k).1
        | .unwrap => q.unwrap.1) ((queryRun F ops).set e)).unwrap.2 = (qs, none) := by
  obtain ⟨k1, k2⟩ := parsePairs_pieces ps amp e noAmp last some_ encoded
  have hno : ¬ ∃ p ∈ ps, p.head? = some 61 := fun ⟨p, h, h'⟩ => good p h h'
  rw [piecesError, if_neg hno] at k2
  have hall : ps.takeWhile (fun p => p.head? != some 61) = ps := by
    clear k1 k2 hno noAmp last some_ encoded
    induction ps with
    | nil => rfl
    | cons p ps ih =>
      rw [List.takeWhile_cons_of_pos (p := fun p : Bytes => p.head? != some 61)
        (by simpa using good p (by simp)), ih (fun q hq => good q (by simp [hq]))]
  refine ⟨_, ?_, ((C13_first_access_partial F ops e).2.2 k2 later same)⟩
  rw [k1, hall]
  simp [pair]

/-- An undigestible escape, on the other hand, is never reported: `%zz` is taken for some byte. -/
theorem C13_bad_digits_violation :
    (¬ ∃ t, PctEncodes b!"k=%zz" t) ∧
    (((queryRun Fold.ascii []).set b!"k=%zz").unwrap).2.2 = none := by
  constructor
  · rintro ⟨t, h⟩
    cases h with
    | lit _ h =>
      cases h with
      | lit _ h =>
        cases h with
        | lit h' _ => exact h' rfl
        | esc h' => rw [show hexVal 122 = none by decide] at h'; cases h'
  · decide

example : ∃ e, Unescapes e (joinAmp [b!"a=1+2", [], b!"flag", b!"k=v=w"] ++ [38]) ∧
    e = b!"a=1%2B2&&flag&k=v=w&" ∧
    [b!"a=1+2", [], b!"flag", b!"k=v=w"].map pieceParam =
      [(b!"a", b!"1 2"), ([], b!"1"), (b!"flag", b!"1"), (b!"k", b!"v=w")] := by
  refine ⟨b!"a=1%2B2&&flag&k=v=w&", ?_, rfl, by decide⟩
  simp only [joinAmp]
  repeat' first | exact .nil | apply Unescapes.lit (by decide) | apply Unescapes.esc (h := 50) (l := 66)

example : ¬ Escapable b!"a=1&b=%4" := by
  intro h
  have := (decode_none_iff b!"a=1&b=%4").1 (by decide)
  exact this h

end Indigo.Props
