/-
Parsing of arbitrary queries.
-/
import Verif.Proofs.Query
import Verif.Proofs.Fault
import Verif.Spec.Form

namespace Indigo.Query
open Indigo.Spec

theorem decode_none_iff (raw : Bytes) : UriDecode.Decode raw = none ↔ ¬ Escapable raw := by
  rw [UriDecode.Decode_eq]
  constructor
  · intro h he
    obtain ⟨s, hs⟩ := Parser.pct_of_escapable he
    rw [h] at hs; cases hs
  · intro h
    cases hp : UriDecode.pct raw with
    | none => rfl
    | some s => exact absurd (Parser.escapable_of_pct hp) h

theorem unplus_append (a b : Bytes) : unplus (a ++ b) = unplus a ++ unplus b := by simp [unplus]

theorem unplus_length (a : Bytes) : (unplus a).length = a.length := by simp [unplus]

/-- A run of bytes of a key. -/
theorem scan_key (p rest tok : Bytes) (acc : List Pair) (fresh : Bool) (h : 38 ∉ p) (h' : 61 ∉ p) :
    scan .key (p ++ rest) fresh tok acc = scan .key rest (if p = [] then fresh else false) (tok ++ unplus p) acc := by
  induction p generalizing tok fresh with
  | nil => simp [unplus]
  | cons c cs ih =>
    simp only [List.mem_cons, not_or] at h h'
    simp only [List.cons_append, scan, EQUALS, AMP, PLUS, SP, Ne.symm h.1, Ne.symm h'.1, if_false]
    by_cases hc : c = 43
    · simp only [hc, if_true]
      rw [ih _ _ h.2 h'.2]; simp [unplus]
    · simp only [hc, if_false]
      rw [ih _ _ h.2 h'.2]; simp [unplus, hc]

/-- A run of bytes of a value. -/
theorem scan_value (k p rest tok : Bytes) (acc : List Pair) (h : 38 ∉ p) :
    scan (.value k) (p ++ rest) false tok acc = scan (.value k) rest false (tok ++ unplus p) acc := by
  induction p generalizing tok with
  | nil => simp [unplus]
  | cons c cs ih =>
    simp only [List.mem_cons, not_or] at h
    simp only [List.cons_append, scan, AMP, PLUS, SP, Ne.symm h.1, if_false]
    by_cases hc : c = 43
    · simp only [hc, if_true]
      rw [ih _ h.2]; simp [unplus]
    · simp only [hc, if_false]
      rw [ih _ h.2]; simp [unplus, hc]

theorem takeWhile_dropWhile_cons {p : Bytes} (h : 61 ∈ p) :
    ∃ a b, p = a ++ 61 :: b ∧ 61 ∉ a ∧ p.takeWhile (· != 61) = a ∧ (p.dropWhile (· != 61)).drop 1 = b := by
  induction p with
  | nil => simp at h
  | cons c cs ih =>
    by_cases hc : c = 61
    · exact ⟨[], cs, by simp [hc], by simp, by simp [hc], by simp [hc]⟩
    · have : 61 ∈ cs := by simpa [Ne.symm hc] using h
      obtain ⟨a, b, h1, h2, h3, h4⟩ := ih this
      exact ⟨c :: a, b, by simp [h1], by simp [h2, Ne.symm hc], by simp [hc, h3],
        by simp [hc, h4]⟩

def pair (q : Bytes × Bytes) : Pair := ⟨q.1, q.2⟩

/-- One piece. -/
theorem scan_piece (p rest : Bytes) (acc : List Pair) (h : 38 ∉ p) :
    scan .key (p ++ 38 :: rest) true [] acc =
      (if p.head? = some 61 then (acc, some Status.ErrBadQuery)
       else scan .key rest true [] (acc ++ [pair (pieceParam p)])) ∧
    (p ≠ [] → scan .key p true [] acc =
      (if p.head? = some 61 then (acc, some Status.ErrBadQuery) else (acc ++ [pair (pieceParam p)], none))) := by
  by_cases he : 61 ∈ p
  · obtain ⟨a, b, rfl, ha, ht, hd⟩ := takeWhile_dropWhile_cons he
    have h1 : 38 ∉ a := fun hm => h (by simp [hm])
    have h2 : 38 ∉ b := fun hm => h (by simp [hm])
    have key : ∀ rest, scan .key (a ++ 61 :: b ++ rest) true [] acc =
        if (a ++ 61 :: b).head? = some 61 then (acc, some Status.ErrBadQuery)
        else scan (.value (unplus a)) rest false (unplus b) acc := by
      intro rest
      rw [List.append_assoc, scan_key a _ _ _ _ h1 ha]
      simp only [List.cons_append, List.nil_append, scan, EQUALS, if_true]
      cases a with
      | nil => simp [unplus]
      | cons x xs =>
        have hx : x ≠ 61 := by intro hx; exact ha (by simp [hx])
        rw [if_neg (by simp [unplus]), if_neg (by simp [hx]), scan_value _ _ _ _ _ h2]
        simp
    have hp : pieceParam (a ++ 61 :: b) = (unplus a, unplus b) := by
      unfold pieceParam
      rw [if_pos he, ht, hd]
    constructor
    · rw [key, hp]
      by_cases hh : (a ++ 61 :: b).head? = some 61
      · rw [if_pos hh, if_pos hh]
      · rw [if_neg hh, if_neg hh]; simp [scan, AMP, pair]
    · intro _
      have := key []
      rw [List.append_nil] at this
      rw [this, hp]
      by_cases hh : (a ++ 61 :: b).head? = some 61
      · rw [if_pos hh, if_pos hh]
      · rw [if_neg hh, if_neg hh]; simp [scan, pair]
  · have hh : p.head? ≠ some 61 := by
      intro hh
      exact he (List.mem_of_mem_head? (by rw [hh]; rfl))
    have hp : pieceParam p = (unplus p, b!"1") := by unfold pieceParam; rw [if_neg he]
    rw [if_neg hh, if_neg hh, hp]
    constructor
    · rw [scan_key p _ _ _ _ h he]
      simp [scan, AMP, EQUALS, pair, defaultEmptyValue]
    · intro hne
      have := scan_key p [] [] acc true h he
      rw [List.append_nil] at this
      rw [this, if_neg hne]
      simp [scan, pair, defaultEmptyValue]

/-- All pieces. -/
theorem scan_pieces (ps : List Bytes) (acc : List Pair) (h : ∀ p ∈ ps, 38 ∉ p) (hl : ps.getLast? ≠ some []) :
    (scan .key (joinAmp ps) true [] acc).1 =
      acc ++ ((ps.takeWhile (fun p => p.head? != some 61)).map (fun p => pair (pieceParam p))) ∧
    (scan .key (joinAmp ps) true [] acc).2 =
      (if ∃ p ∈ ps, p.head? = some 61 then some Status.ErrBadQuery else none) := by
  induction ps generalizing acc with
  | nil => simp [joinAmp, scan]
  | cons p ps ih =>
    have hp := h p (by simp)
    cases ps with
    | nil =>
      have hne : p ≠ [] := by simpa using hl
      simp only [joinAmp]
      rw [(scan_piece p [] acc hp).2 hne]
      by_cases hh : p.head? = some 61
      · simp [hh]
      · simp [hh]
    | cons q qs =>
      have := ih (acc ++ [pair (pieceParam p)]) (fun x hx => h x (by simp [hx])) (by simpa using hl)
      simp only [joinAmp]
      rw [(scan_piece p _ acc hp).1]
      by_cases hh : p.head? = some 61
      · simp [hh]
      · rw [if_neg hh, this.1, this.2]
        have hb : (p.head? != some 61) = true := by simpa using hh
        constructor
        · rw [List.takeWhile_cons_of_pos (p := fun p : Bytes => p.head? != some 61) hb]; simp
        · simp [hh]

/-- Every text consists of pieces, possibly followed by one superfluous `&`. -/
theorem exists_pieces (t : Bytes) : ∃ ps : List Bytes, (∀ p ∈ ps, 38 ∉ p) ∧ t = joinAmp ps ∧ ps ≠ [] := by
  induction t with
  | nil => exact ⟨[[]], by simp, rfl, by simp⟩
  | cons c cs ih =>
    obtain ⟨ps, h1, h2, h3⟩ := ih
    cases ps with
    | nil => exact absurd rfl h3
    | cons p ps =>
      by_cases hc : c = 38
      · refine ⟨[] :: p :: ps, ?_, by simp [joinAmp, h2, hc], by simp⟩
        intro x hx
        rcases List.mem_cons.1 hx with rfl | hx
        · simp
        · exact h1 x hx
      · refine ⟨(c :: p) :: ps, ?_, ?_, by simp⟩
        · intro x hx
          rcases List.mem_cons.1 hx with rfl | hx
          · simp only [List.mem_cons, not_or]
            exact ⟨fun h => hc h.symm, h1 p (by simp)⟩
          · exact h1 x (by simp [hx])
        · rw [h2]; cases ps <;> simp [joinAmp]

/-- A superfluous `&` at the end changes nothing. -/
theorem scan_trailing (ps : List Bytes) (acc : List Pair) (h : ∀ p ∈ ps, 38 ∉ p) (hne : ps ≠ []) :
    (scan .key (joinAmp (ps ++ [[]])) true [] acc).1 =
      acc ++ ((ps.takeWhile (fun p => p.head? != some 61)).map (fun p => pair (pieceParam p))) ∧
    (scan .key (joinAmp (ps ++ [[]])) true [] acc).2 =
      (if ∃ p ∈ ps, p.head? = some 61 then some Status.ErrBadQuery else none) := by
  induction ps generalizing acc with
  | nil => exact absurd rfl hne
  | cons p ps ih =>
    have hp := h p (by simp)
    have hj : joinAmp (p :: ps ++ [[]]) = p ++ 38 :: joinAmp (ps ++ [[]]) := by
      cases ps <;> simp [joinAmp]
    rw [hj, (scan_piece p _ acc hp).1]
    have hb (hh : ¬ p.head? = some 61) : (p.head? != some 61) = true := by simpa using hh
    cases ps with
    | nil =>
      by_cases hh : p.head? = some 61
      · simp [hh]
      · simp [hh, joinAmp, scan]
    | cons q qs =>
      have := ih (acc ++ [pair (pieceParam p)]) (fun x hx => h x (by simp [hx])) (by simp)
      by_cases hh : p.head? = some 61
      · simp [hh]
      · rw [if_neg hh, this.1, this.2]
        constructor
        · rw [List.takeWhile_cons_of_pos (p := fun p : Bytes => p.head? != some 61) (hb hh)]; simp
        · simp [hh]

end Indigo.Query
