/-
C13: what is left of the query after it has been accessed: what `Raw()` returns, and which errors are reported.
-/
import Verif.Props.QueryTotal
import Verif.Props.Uri

namespace Indigo.UriDecode

/-- Decoding in place changes nothing behind the result. -/
private theorem decodeMemLoop_tail (fuel : Nat) : ∀ (mem : Bytes) (base w r e : Nat) (m : Bytes) (lo hi : Nat), w ≤ r → r ≤ e → e ≤ mem.length →
    decodeMemLoop fuel mem base w r e = (m, some (lo, hi)) → w ≤ hi ∧ m.drop hi = mem.drop hi := by
  have move : ∀ (mem : Bytes) (d s n k : Nat), d + n ≤ mem.length → s + n ≤ mem.length → d + n ≤ k →
      (moveBytes mem d s n).drop k = mem.drop k ∧ (moveBytes mem d s n).length = mem.length := by
    intro mem d s n k h1 h2 h3
    have hl : (mem.take d ++ (mem.drop s).take n).length = d + n := by simp; omega
    constructor
    · rw [moveBytes, List.drop_append, hl, List.drop_of_length_le (by omega), List.nil_append, List.drop_drop]
      congr 1; omega
    · rw [moveBytes, List.length_append, hl, List.length_drop]; omega
  induction fuel with
  | zero => intro mem base w r e m lo hi _ _ _ h; simp [decodeMemLoop] at h
  | succ n ih =>
    intro mem base w r e m lo hi hwr hre he h
    rw [decodeMemLoop] at h
    split at h
    · split at h
      · simp only [Prod.mk.injEq, Option.some.injEq] at h
        obtain ⟨rfl, rfl, rfl⟩ := h
        exact ⟨by omega, rfl⟩
      · simp only [Prod.mk.injEq, Option.some.injEq] at h
        obtain ⟨rfl, rfl, rfl⟩ := h
        exact ⟨by omega, (move mem w r (e - r) _ (by omega) (by omega) (by omega)).1⟩
    · rename_i i _
      split at h
      · simp at h
      · simp only at h
        split at h
        · obtain ⟨hm1, hm2⟩ := move mem w r i (w + i + 1) (by omega) (by omega) (by omega)
          obtain ⟨h1, h2⟩ := ih _ _ _ _ _ _ _ _ (by omega) (by omega) (by rw [List.length_set, hm2]; exact he) h
          refine ⟨by omega, ?_⟩
          rw [h2, List.drop_set, if_pos (by omega)]
          exact (move mem w r i hi (by omega) (by omega) (by omega)).1
        · simp at h

/-- Decoding an array in place: the result and, behind it, what was there before. -/
theorem decodeMem_all {src d : Bytes} (h : Decode src = some d) :
    decodeMem src 0 src.length = (d ++ src.drop d.length, some (0, d.length)) := by
  obtain ⟨mid, h1, h2, h3⟩ := decodeMem_spec [] src []
  simp only [List.nil_append, List.append_nil, List.length_nil, Nat.zero_add, h] at h1 h2 h3
  have he : decodeMem src 0 src.length = (mid, some (0, d.length)) := by rw [← h1, ← h3.1]
  obtain ⟨-, ht⟩ := decodeMemLoop_tail _ _ _ _ _ _ _ _ _ (Nat.le_refl _) (by simp) (by simp) he
  rw [he, ← ht]
  have := List.take_append_drop d.length mid
  rw [h3.2] at this
  rw [this]

end Indigo.UriDecode

namespace Indigo.Props
open Indigo.Spec Indigo.Query

private theorem scanMem_ok : ∀ (cs : Bytes),
    (∀ fresh tok acc, (scan .key cs fresh tok acc).2 = none → scanMem true (tok.length = 0) cs = unplus cs) ∧
    (∀ k fresh tok acc b, (scan (.value k) cs fresh tok acc).2 = none → scanMem false b cs = unplus cs) := by
  intro cs
  induction cs with
  | nil => exact ⟨fun _ _ _ _ => rfl, fun _ _ _ _ _ _ => rfl⟩
  | cons c cs ih =>
    obtain ⟨ih1, ih2⟩ := ih
    have e1 : (61 : Byte) ≠ 43 := by decide
    have e2 : (38 : Byte) ≠ 43 := by decide
    constructor
    · intro fresh tok acc h
      rw [scan] at h
      simp only [scanMem, EQUALS, AMP, PLUS, SP, unplus, List.map_cons] at h ⊢
      by_cases hc : c = 61
      · simp only [hc, if_true, if_neg e1] at h ⊢
        by_cases ht : tok.length = 0
        · simp [ht] at h
        · simp only [ht, decide_false, if_false, Bool.false_eq_true] at h ⊢
          rw [ih2 _ _ _ _ _ h]; rfl
      · simp only [hc, if_false] at h ⊢
        by_cases ha : c = 38
        · simp only [ha, if_true, if_neg e2] at h ⊢
          have := ih1 _ _ _ h
          simp only [List.length_nil, decide_true] at this
          rw [this]; rfl
        · simp only [ha, if_false] at h ⊢
          by_cases hp : c = 43
          · simp only [hp, if_true] at h ⊢
            have := ih1 _ _ _ h
            simp at this
            rw [this]; rfl
          · simp only [hp, if_false] at h ⊢
            have := ih1 _ _ _ h
            simp at this
            rw [this]; rfl
    · intro k fresh tok acc b h
      rw [scan] at h
      simp only [scanMem, AMP, PLUS, SP, unplus, List.map_cons] at h ⊢
      by_cases ha : c = 38
      · simp only [ha, if_true, if_neg e2] at h ⊢
        have := ih1 _ _ _ h
        simp only [List.length_nil, decide_true] at this
        rw [this]; rfl
      · simp only [ha, if_false] at h ⊢
        by_cases hp : c = 43
        · simp only [hp, if_true] at h ⊢
          rw [ih2 _ _ _ _ _ h]; rfl
        · simp only [hp, if_false] at h ⊢
          rw [ih2 _ _ _ _ _ h]; rfl

private theorem scanMem_plain : ∀ (cs : Bytes) (a b : Bool), 43 ∉ cs → scanMem a b cs = cs := by
  intro cs
  induction cs with
  | nil => intro a b _; cases a <;> rfl
  | cons c cs ih =>
    intro a b h
    simp only [List.mem_cons, not_or] at h
    have hp : c ≠ 43 := Ne.symm h.1
    cases a <;> simp only [scanMem, PLUS, hp, if_false, ih _ _ h.2, ite_self]

/-- One access. -/
def QueryOp.run (F : Fold) (q : Query) : QueryOp → Query
  | .set raw => q.set raw
  | .get k => (q.get F k).1
  | .unwrap => q.unwrap.1

/-- Any accesses. -/
def accesses (F : Fold) (later : List QueryOp) (q : Query) : Query := later.foldl (QueryOp.run F) q

private theorem parsed_access (F : Fold) (op : QueryOp) (hop : ∀ r, op ≠ .set r) (q : Query) : op.run F q = q.doParse.1 := by
  unfold QueryOp.run
  cases op with
  | set r => exact absurd rfl (hop r)
  | get k =>
    simp only [Query.get]
    generalize q.doParse = d
    obtain ⟨d1, d2⟩ := d
    cases d2 with
    | some e => rfl
    | none => simp only; split <;> rfl
  | unwrap => rfl

private theorem accesses_parsed (F : Fold) (later : List QueryOp) (same : ∀ op ∈ later, ∀ r, op ≠ .set r) (q : Query) (h : q.parsed = true) :
    accesses F later q = q := by
  unfold accesses
  induction later with
  | nil => rfl
  | cons op ops ih =>
    rw [List.foldl_cons, parsed_access F op (same op (by simp)) q, Query.doParse, if_pos h]
    exact ih (fun o ho => same o (by simp [ho]))

private theorem accesses_set (F : Fold) (ops later : List QueryOp) (raw : Bytes) (some_ : later ≠ []) (same : ∀ op ∈ later, ∀ r, op ≠ .set r) :
    accesses F later ((queryRun F ops).set raw) = ((queryRun F ops).set raw).doParse.1 := by
  cases later with
  | nil => exact absurd rfl some_
  | cons op later =>
    have : accesses F (op :: later) ((queryRun F ops).set raw) = accesses F later ((queryRun F ops).set raw).doParse.1 := by
      conv => lhs; rw [accesses, List.foldl_cons, parsed_access F op (same op (by simp))]
      rfl
    rw [this]
    exact accesses_parsed F later (fun o ho => same o (by simp [ho])) _ (by rw [(set_doParse F ops raw).1])

/-- **C13.** Of every query, malformed or not, only the first access tells whether it is malformed: after it, whatever accesses there were, none reports an
error, and the parameters are the ones the first access gave along with its error. -/
theorem C13_only_first (F : Fold) (ops later : List QueryOp) (raw : Bytes) (some_ : later ≠ []) (same : ∀ op ∈ later, ∀ r, op ≠ .set r) :
    (accesses F later ((queryRun F ops).set raw)).unwrap.2 = ((((queryRun F ops).set raw).unwrap).2.1, none) ∧
    ∀ k e, ((accesses F later ((queryRun F ops).set raw)).get F k).2 ≠ .error (.http e) := by
  rw [accesses_set F ops later raw some_ same]
  have hp : (((queryRun F ops).set raw).doParse.1).parsed = true := by rw [(set_doParse F ops raw).1]
  have hd : (((queryRun F ops).set raw).doParse.1).doParse = (((queryRun F ops).set raw).doParse.1, none) := by
    rw [Query.doParse, if_pos hp]
  constructor
  · simp only [Query.unwrap, hd]
  · intro k e
    simp only [Query.get, hd]
    split <;> simp

/-- **C13 (part).** If the query has neither `%` nor `+`, then `Raw()` gives what was sent, whatever accesses there were, also if it is malformed. -/
theorem C13_raw_partial (F : Fold) (ops later : List QueryOp) (raw : Bytes) (same : ∀ op ∈ later, ∀ r, op ≠ .set r)
    (percent : 37 ∉ raw) (plus : 43 ∉ raw) : (accesses F later ((queryRun F ops).set raw)).raw = raw := by
  by_cases hl : later = []
  · subst hl
    show ((queryRun F ops).set raw).raw = raw
    unfold Query.set; split <;> rfl
  · rw [accesses_set F ops later raw hl same, (set_doParse F ops raw).1]
    have hd : UriDecode.Decode raw = some raw := by rw [UriDecode.Decode_eq]; exact UriDecode.pct_noesc raw percent
    simp only [parseMem, UriDecode.decodeMem_all hd]
    simp [scanMem_plain _ _ _ plus]

/-- **C13.** What `Raw()` gives after a well-formed query has been accessed, once or several times: the plain text with spaces for `+` (encoded ones, too), and
behind it as many bytes of the query as were saved by decoding. -/
theorem C13_raw_after (F : Fold) (ops later : List QueryOp) (ps : List Bytes) (amp : Bool) (e : Bytes)
    (noAmp : ∀ p ∈ ps, 38 ∉ p) (last : amp = false → ps.getLast? ≠ some []) (nonempty : amp = true → ps ≠ [])
    (encoded : Unescapes e (joinAmp ps ++ if amp then [38] else [])) (good : ∀ p ∈ ps, p.head? ≠ some 61)
    (some_ : later ≠ []) (same : ∀ op ∈ later, ∀ r, op ≠ .set r) :
    (accesses F later ((queryRun F ops).set e)).raw =
      unplus (joinAmp ps ++ if amp then [38] else []) ++ e.drop (joinAmp ps ++ if amp then [38] else []).length := by
  rw [accesses_set F ops later e some_ same, (set_doParse F ops e).1]
  have herr := (parsePairs_pieces ps amp e noAmp last nonempty encoded).2
  have hgood : ¬ ∃ p ∈ ps, p.head? = some 61 := by rintro ⟨p, hp, h⟩; exact good p hp h
  rw [piecesError, if_neg hgood] at herr
  generalize joinAmp ps ++ (if amp then [38] else []) = t at encoded
  have hd : UriDecode.Decode e = some t := by rw [UriDecode.Decode_eq]; exact UriDecode.pct_of_unescapes encoded
  simp only [parseMem, UriDecode.decodeMem_all hd, List.drop_zero, List.take_zero, List.nil_append]
  rw [List.take_append_of_le_length (Nat.le_refl _), List.take_of_length_le (Nat.le_refl _),
    List.drop_append_of_le_length (Nat.le_refl _), List.drop_of_length_le (Nat.le_refl _), List.nil_append]
  congr 1
  unfold parsePairs at herr
  split at herr
  · rename_i h0
    have : e = [] := List.eq_nil_of_length_eq_zero h0
    subst this
    cases encoded
    rfl
  · rw [hd] at herr
    have := (scanMem_ok t).1 _ _ _ herr
    simpa using this

private theorem scanMem_value (r : Bytes) : ∀ (p : Bytes) (b : Bool), 38 ∉ p → scanMem false b (p ++ 38 :: r) = unplus p ++ 38 :: scanMem true true r := by
  intro p
  induction p with
  | nil => intro b _; simp [scanMem, AMP, unplus]
  | cons c p ih =>
    intro b h
    simp only [List.mem_cons, not_or] at h
    simp only [List.cons_append, scanMem, AMP, PLUS, SP, Ne.symm h.1, if_false, ih _ h.2, unplus, List.map_cons]
    split <;> rfl

private theorem scanMem_key (r : Bytes) : ∀ (p : Bytes), 38 ∉ p → scanMem true false (p ++ 38 :: r) = unplus p ++ 38 :: scanMem true true r := by
  intro p
  induction p with
  | nil => intro _; simp [scanMem, AMP, EQUALS, unplus]
  | cons c p ih =>
    intro h
    simp only [List.mem_cons, not_or] at h
    have e1 : (61 : Byte) ≠ 43 := by decide
    simp only [List.cons_append, scanMem, AMP, PLUS, SP, EQUALS, Ne.symm h.1, if_false, ih h.2, scanMem_value r p true h.2, unplus, List.map_cons, Bool.false_eq_true]
    by_cases hc : c = 61
    · simp [hc]
    · simp only [hc, if_false]
      split <;> rfl

private theorem scanMem_piece (r : Bytes) (p : Bytes) (h : 38 ∉ p) (h' : p.head? ≠ some 61) :
    scanMem true true (p ++ 38 :: r) = unplus p ++ 38 :: scanMem true true r := by
  cases p with
  | nil => simp [scanMem, AMP, EQUALS, unplus]
  | cons c p =>
    simp only [List.mem_cons, not_or] at h
    have hc : c ≠ 61 := by simpa using h'
    simp only [List.cons_append, scanMem, AMP, PLUS, SP, EQUALS, Ne.symm h.1, hc, if_false, scanMem_key r p h.2, unplus, List.map_cons]
    split <;> rfl

private theorem scanMem_malformed (rest : Bytes) : ∀ (ps : List Bytes), (∀ p ∈ ps, 38 ∉ p ∧ p.head? ≠ some 61) →
    scanMem true true (ps.flatMap (· ++ [38]) ++ 61 :: rest) = unplus (ps.flatMap (· ++ [38])) ++ 61 :: rest := by
  intro ps
  induction ps with
  | nil => intro _; simp [scanMem, EQUALS, unplus]
  | cons p ps ih =>
    intro h
    obtain ⟨h1, h2⟩ := h p (by simp)
    simp only [List.flatMap_cons, List.append_assoc, List.cons_append, List.nil_append]
    rw [scanMem_piece _ p h1 h2, ih (fun q hq => h q (by simp [hq]))]
    simp [unplus]

/-- **C13.** What `Raw()` gives after a query with an empty key has been accessed, once or several times: up to the empty key as in `C13_raw_after`, and from there on the plain text as it is, with its `+`;
behind it as many bytes of the query as were saved by decoding. -/
theorem C13_raw_after_empty_key (F : Fold) (ops later : List QueryOp) (ps : List Bytes) (rest e : Bytes)
    (before : ∀ p ∈ ps, 38 ∉ p ∧ p.head? ≠ some 61) (encoded : Unescapes e (ps.flatMap (· ++ [38]) ++ 61 :: rest))
    (some_ : later ≠ []) (same : ∀ op ∈ later, ∀ r, op ≠ .set r) :
    (accesses F later ((queryRun F ops).set e)).raw =
      unplus (ps.flatMap (· ++ [38])) ++ 61 :: rest ++ e.drop (ps.flatMap (· ++ [38]) ++ 61 :: rest).length := by
  rw [accesses_set F ops later e some_ same, (set_doParse F ops e).1]
  have hs := scanMem_malformed rest ps before
  generalize ps.flatMap (· ++ [38]) ++ 61 :: rest = t at encoded hs
  have hd : UriDecode.Decode e = some t := by rw [UriDecode.Decode_eq]; exact UriDecode.pct_of_unescapes encoded
  simp only [parseMem, UriDecode.decodeMem_all hd, List.drop_zero, List.take_zero, List.nil_append]
  rw [List.take_append_of_le_length (Nat.le_refl _), List.take_of_length_le (Nat.le_refl _),
    List.drop_append_of_le_length (Nat.le_refl _), List.drop_of_length_le (Nat.le_refl _), List.nil_append, hs]

/-- The query `a+=%41&=b+c%41`, accessed. -/
example : Unescapes b!"a+=%41&=b+c%41" ([b!"a+=A"].flatMap (· ++ [38]) ++ 61 :: b!"b+cA") ∧
    (accesses Fold.ascii [.unwrap] ((queryRun Fold.ascii []).set b!"a+=%41&=b+c%41")).raw = b!"a =A&=b+cAc%41" := by
  refine ⟨?_, by decide +kernel⟩
  repeat' first | exact .nil | exact .lit (by decide) (by assumption) | apply Unescapes.esc | apply Unescapes.lit (by decide)

/-- The query `a=%41+b&c`, accessed twice. -/
example : Unescapes b!"a=%41+b&c" (joinAmp [b!"a=A+b", b!"c"]) ∧
    (accesses Fold.ascii [.get b!"a", .unwrap] ((queryRun Fold.ascii [.set b!"x=%20", .unwrap]).set b!"a=%41+b&c")).raw = b!"a=A b&c&c" := by
  refine ⟨?_, by decide +kernel⟩
  repeat' first | exact .nil | exact .lit (by decide) (by assumption) | apply Unescapes.esc | apply Unescapes.lit (by decide)

example : (accesses Fold.ascii [.get b!"a", .unwrap] ((queryRun Fold.ascii []).set b!"a=1&=2")).raw = b!"a=1&=2" ∧
    ((queryRun Fold.ascii []).set b!"a=1&=2").unwrap.2 = ([⟨b!"a", b!"1"⟩], some Status.ErrBadQuery) ∧
    (accesses Fold.ascii [.get b!"a"] ((queryRun Fold.ascii []).set b!"a=1&=2")).unwrap.2 = ([⟨b!"a", b!"1"⟩], none) := by
  decide +kernel

end Indigo.Props
