import Verif.Model.UriDecode
import Verif.Spec.Uri

namespace Indigo.UriDecode
open Indigo.Spec

/-- Byte-at-a-time version of the decoder. -/
def pct : Bytes → Option Bytes
  | [] => some []
  | c :: cs =>
    if c = PERCENT then
      match cs with
      | h :: l :: rest => (pct rest).map (unescape h l :: ·)
      | _ => none
    else (pct cs).map (c :: ·)

theorem pct_cons (c : Byte) (cs : Bytes) : pct (c :: cs) =
    if c = PERCENT then
      match cs with
      | h :: l :: rest => (pct rest).map (unescape h l :: ·)
      | _ => none
    else (pct cs).map (c :: ·) := by
  rw [pct.eq_def]; rfl

theorem pct_append (a b : Bytes) (h : PERCENT ∉ a) : pct (a ++ b) = (pct b).map (a ++ ·) := by
  induction a with
  | nil => simp
  | cons x xs ih =>
    simp at h
    have hx : ¬ x = PERCENT := fun e => h.1 e.symm
    simp only [List.cons_append, pct_cons, hx, if_false, ih h.2, Option.map_map]
    rfl

theorem pct_noesc (a : Bytes) (h : PERCENT ∉ a) : pct a = some a := by
  have := pct_append a [] h
  simpa [pct] using this

theorem decodeLoop_eq (fuel : Nat) (src buff : Bytes) (h : src.length < fuel) :
    decodeLoop fuel src buff = (pct src).map (buff ++ ·) := by
  induction fuel generalizing src buff with
  | zero => omega
  | succ n ih =>
    simp only [decodeLoop]
    split
    · rename_i hc
      rw [pct_noesc _ (cut_none.1 hc)]
      split
      · rename_i hb; have := List.eq_nil_of_length_eq_zero hb; simp [this]
      · rfl
    · rename_i pre rest hc
      obtain ⟨h1, h2⟩ := cut_some hc
      subst h1
      rw [pct_append _ _ h2]
      match rest with
      | [] => simp [pct_cons]
      | [x] => simp [pct_cons]
      | x :: y :: rest =>
        simp only
        rw [ih _ _ (by simp at h; omega)]
        simp only [pct_cons, if_true, Option.map_map]
        congr 1
        funext t; simp

theorem Decode_eq (src : Bytes) : Decode src = pct src := by
  rw [Decode, decodeLoop_eq _ _ _ (by omega)]
  simp

theorem pct_length {src d : Bytes} (h : pct src = some d) : d.length ≤ src.length := by
  induction hn : src.length using Nat.strongRecOn generalizing src d with
  | ind n ih =>
    cases src with
    | nil => rw [pct] at h; cases h; simp
    | cons c cs =>
      simp only [pct_cons] at h
      split at h
      · split at h
        · rename_i h' l rest
          simp at h
          obtain ⟨t, ht, rfl⟩ := h
          have := ih rest.length (by simp at hn; omega) ht rfl
          simp at hn ⊢; omega
        · simp at h
      · simp at h
        obtain ⟨t, ht, rfl⟩ := h
        have := ih cs.length (by simp at hn; omega) ht rfl
        simp at hn ⊢; omega

theorem hex_ok : ∀ (c : Byte) (n : Nat), hexVal c = some n → hexParse c = UInt8.ofNat n ∧ n < 16 := by
  intro c n
  have : ∀ k : Fin 256, ∀ n, hexVal (UInt8.ofNat k.val) = some n →
      hexParse (UInt8.ofNat k.val) = UInt8.ofNat n ∧ n < 16 := by
    have h2 : ∀ k : Fin 256, (hexVal (UInt8.ofNat k.val)).all
        (fun n => hexParse (UInt8.ofNat k.val) == UInt8.ofNat n && decide (n < 16)) = true := by
      decide +kernel
    intro k n hk
    have := h2 k
    rw [hk] at this
    simpa using this
  have h := this ⟨c.toNat, c.toNat_lt⟩
  simpa using h n

theorem unescape_hex {h l : Byte} {hi lo : Nat} (h1 : hexVal h = some hi) (h2 : hexVal l = some lo) :
    unescape h l = UInt8.ofNat (16 * hi + lo) := by
  obtain ⟨e1, b1⟩ := hex_ok _ _ h1
  obtain ⟨e2, b2⟩ := hex_ok _ _ h2
  rw [unescape, e1, e2]
  have : ∀ i j : Fin 16, ((UInt8.ofNat i.val) <<< 4 ||| UInt8.ofNat j.val) =
      UInt8.ofNat (16 * i.val + j.val) := by decide +kernel
  exact this ⟨hi, b1⟩ ⟨lo, b2⟩

theorem pct_of_encodes {e s : Bytes} (h : PctEncodes e s) : pct e = some s := by
  induction h with
  | nil => rfl
  | lit hc _ ih => simp [pct_cons, hc, ih]
  | esc h1 h2 _ ih => simp [pct_cons, ih, unescape_hex h1 h2]

theorem hexParse_getD (c : Byte) : hexParse c = UInt8.ofNat ((hexVal c).getD 0) ∧ (hexVal c).getD 0 < 16 := by
  cases h : hexVal c with
  | some n => exact hex_ok c n h
  | none =>
    refine ⟨?_, by decide⟩
    have : ∀ k : Fin 256, hexVal (UInt8.ofNat k.val) = none → hexParse (UInt8.ofNat k.val) = 0 := by decide +kernel
    have h' := this ⟨c.toNat, c.toNat_lt⟩
    simp only [UInt8.ofNat_toNat] at h'
    exact h' h

theorem unescape_getD (h l : Byte) : unescape h l = UInt8.ofNat (16 * (hexVal h).getD 0 + (hexVal l).getD 0) := by
  obtain ⟨e1, b1⟩ := hexParse_getD h
  obtain ⟨e2, b2⟩ := hexParse_getD l
  rw [unescape, e1, e2]
  have : ∀ i j : Fin 16, ((UInt8.ofNat i.val) <<< 4 ||| UInt8.ofNat j.val) =
      UInt8.ofNat (16 * i.val + j.val) := by decide +kernel
  exact this ⟨_, b1⟩ ⟨_, b2⟩

theorem pct_of_unescapes {e s : Bytes} (h : Unescapes e s) : pct e = some s := by
  induction h with
  | nil => rfl
  | lit hc _ ih => simp [pct_cons, hc, ih]
  | esc _ ih => simp [pct_cons, ih, unescape_getD]

theorem unescapes_of_pct {e s : Bytes} (h : pct e = some s) : Unescapes e s := by
  induction hn : e.length using Nat.strongRecOn generalizing e s with
  | ind n ih =>
    cases e with
    | nil => rw [pct] at h; cases h; exact .nil
    | cons c cs =>
      simp only [pct_cons] at h
      split at h
      · rename_i hc
        subst hc
        split at h
        · rename_i h' l rest
          simp at h
          obtain ⟨t, ht, rfl⟩ := h
          rw [unescape_getD]
          exact .esc (ih rest.length (by simp at hn; omega) ht rfl)
        · simp at h
      · rename_i hc
        simp at h
        obtain ⟨t, ht, rfl⟩ := h
        exact .lit hc (ih cs.length (by simp at hn; omega) ht rfl)

theorem hexDigit_val (n : Nat) (h : n < 16) : hexVal (hexDigit n) = some n := by
  have : ∀ i : Fin 16, hexVal (hexDigit i.val) = some i.val := by decide +kernel
  exact this ⟨n, h⟩

theorem pctEncode_encodes (p : Byte → Bool) (s : Bytes) : PctEncodes (pctEncode p s) s := by
  induction s with
  | nil => exact .nil
  | cons c cs ih =>
    simp only [pctEncode]
    split
    · have hc := c.toNat_lt
      have := PctEncodes.esc (hexDigit_val (c.toNat / 16) (by omega))
        (hexDigit_val (c.toNat % 16) (by omega)) ih
      rw [show 16 * (c.toNat / 16) + c.toNat % 16 = c.toNat by omega] at this
      simpa using this
    · rename_i h
      exact .lit (fun e => h (Or.inl e)) ih

/-! ### Memory-level decoder -/

theorem moveBytes_split (A B D E : Bytes) :
    moveBytes (A ++ B ++ D ++ E) A.length (A.length + B.length) D.length =
      A ++ D ++ ((B ++ D).drop D.length) ++ E := by
  unfold moveBytes
  have h1 : (A ++ B ++ D ++ E).take A.length = A := by simp [List.append_assoc]
  have h2 : ((A ++ B ++ D ++ E).drop (A.length + B.length)).take D.length = D := by
    rw [show A ++ B ++ D ++ E = (A ++ B) ++ (D ++ E) by simp,
      List.drop_append_of_le_length (by simp),
      List.drop_of_length_le (by simp), List.nil_append,
      List.take_append_of_le_length (by simp), List.take_of_length_le (by simp)]
  have h3 : (A ++ B ++ D ++ E).drop (A.length + D.length) = (B ++ D).drop D.length ++ E := by
    rw [show A ++ B ++ D ++ E = A ++ ((B ++ D) ++ E) by simp, List.drop_append]
    rw [List.drop_of_length_le (by omega), List.nil_append,
      show A.length + D.length - A.length = D.length by omega,
      List.drop_append_of_le_length (by simp)]
  rw [h1, h2, h3]; simp

/-- Shape of the array during the loop: `pre` untouched prefix, `out` bytes already written, `gap` dead
bytes, `src` still to be read, `post` untouched suffix. -/
theorem decodeMemLoop_spec (fuel : Nat) (pre out gap src post : Bytes)
    (hf : src.length < fuel) (hgap : out = [] → gap = []) :
    let r := decodeMemLoop fuel (pre ++ out ++ gap ++ src ++ post) pre.length
      (pre.length + out.length) (pre.length + out.length + gap.length)
      (pre.length + out.length + gap.length + src.length)
    ∃ mid : Bytes, r.1 = pre ++ mid ++ post ∧ mid.length = out.length + gap.length + src.length ∧
      match pct src with
      | none => r.2 = none
      | some d => r.2 = some (pre.length, pre.length + (out ++ d).length) ∧
          mid.take (out ++ d).length = out ++ d := by
  induction fuel generalizing out gap src with
  | zero => omega
  | succ n ih =>
    have hwin : ((pre ++ out ++ gap ++ src ++ post).take
        (pre.length + out.length + gap.length + src.length)).drop
        (pre.length + out.length + gap.length) = src := by
      rw [List.take_append_of_le_length (by simp; omega)]
      rw [List.take_of_length_le (by simp; omega)]
      rw [List.drop_append]
      simp [Nat.add_assoc]
    simp only [decodeMemLoop, pctIndex, hwin]
    cases hc : cut PERCENT src with
    | none =>
      have hp := pct_noesc src (cut_none.1 hc)
      simp only [hp]
      by_cases hout : out = []
      · subst hout
        have := hgap rfl
        subst this
        simp only [List.length_nil, Nat.add_zero, List.append_nil, if_true]
        exact ⟨src, by simp⟩
      · have hpos : ¬ pre.length + out.length = pre.length := by
          cases out with
          | nil => exact absurd rfl hout
          | cons => simp
        simp only [if_neg hpos]
        have hm := moveBytes_split (pre ++ out) gap src post
        simp only [List.length_append] at hm
        have e1 : pre.length + out.length + gap.length + src.length
            - (pre.length + out.length + gap.length) = src.length := by omega
        rw [e1, hm]
        refine ⟨out ++ src ++ (gap ++ src).drop src.length, by simp, by simp; omega, ?_, ?_⟩
        · simp; omega
        · rw [List.take_append_of_le_length (by simp), List.take_of_length_le (by simp)]
    | some pr =>
      obtain ⟨p, rest⟩ := pr
      obtain ⟨h1, h2⟩ := cut_some hc
      subst h1
      simp only
      rw [pct_append _ _ h2]
      match rest with
      | [] =>
        refine ⟨out ++ gap ++ (p ++ [PERCENT]), ?_⟩
        simp [pct_cons]
        omega
      | [x] =>
        refine ⟨out ++ gap ++ (p ++ [PERCENT, x]), ?_⟩
        simp [pct_cons]
        omega
      | x :: y :: rest =>
        have hcond : ¬ (pre.length + out.length + gap.length + (p ++ PERCENT :: x :: y :: rest).length
            - (pre.length + out.length + gap.length) ≤ p.length + 2) := by
          simp
        simp only [if_neg hcond]
        have hm := moveBytes_split (pre ++ out) gap p (PERCENT :: x :: y :: rest ++ post)
        simp only [List.length_append] at hm
        rw [show pre ++ out ++ gap ++ (p ++ PERCENT :: x :: y :: rest) ++ post =
          pre ++ out ++ gap ++ p ++ (PERCENT :: x :: y :: rest ++ post) by simp, hm]
        obtain ⟨X, hX, hXl⟩ : ∃ X, (gap ++ p).drop p.length = X ∧ X.length = gap.length :=
          ⟨_, rfl, by simp⟩
        rw [hX]
        have g1 : (pre ++ out ++ p ++ X ++ (PERCENT :: x :: y :: rest ++ post))[
            pre.length + out.length + gap.length + p.length + 1]? = some x := by
          rw [List.getElem?_append_right (by simp; omega)]
          rw [show pre.length + out.length + gap.length + p.length + 1 -
            (pre ++ out ++ p ++ X).length = 1 by simp; omega]
          rfl
        have g2 : (pre ++ out ++ p ++ X ++ (PERCENT :: x :: y :: rest ++ post))[
            pre.length + out.length + gap.length + p.length + 2]? = some y := by
          rw [List.getElem?_append_right (by simp; omega)]
          rw [show pre.length + out.length + gap.length + p.length + 2 -
            (pre ++ out ++ p ++ X).length = 2 by simp; omega]
          rfl
        rw [g1, g2]
        simp only
        -- the written byte replaces the first byte of `X ++ [%]`
        obtain ⟨Y, y0, hY⟩ : ∃ Y y0, X ++ [PERCENT] = y0 :: Y := by
          cases X with
          | nil => exact ⟨[], PERCENT, rfl⟩
          | cons a X => exact ⟨X ++ [PERCENT], a, rfl⟩
        have hYl : Y.length = gap.length := by
          have := congrArg List.length hY
          simp at this; omega
        have hset : (pre ++ out ++ p ++ X ++ (PERCENT :: x :: y :: rest ++ post)).set
            (pre.length + out.length + p.length) (unescape x y) =
            pre ++ (out ++ p ++ [unescape x y]) ++ (Y ++ [x, y]) ++ rest ++ post := by
          rw [show pre ++ out ++ p ++ X ++ (PERCENT :: x :: y :: rest ++ post) =
            (pre ++ out ++ p) ++ ((X ++ [PERCENT]) ++ (x :: y :: rest ++ post)) by simp, hY]
          rw [List.set_append_right _ _ (by simp; omega)]
          rw [show pre.length + out.length + p.length - (pre ++ out ++ p).length = 0 by simp; omega]
          simp
        rw [hset]
        have := ih (out ++ p ++ [unescape x y]) (Y ++ [x, y]) rest (by simp at hf; omega) (by simp)
        rw [show pre.length + (out ++ p ++ [unescape x y]).length =
            pre.length + out.length + p.length + 1 by simp; omega] at this
        rw [show pre.length + out.length + p.length + 1 + (Y ++ [x, y]).length =
            pre.length + out.length + gap.length + p.length + 3 by simp; omega] at this
        rw [show pre.length + out.length + gap.length + p.length + 3 + rest.length =
            pre.length + out.length + gap.length + (p ++ PERCENT :: x :: y :: rest).length by
              simp; omega] at this
        obtain ⟨mid, m1, m2, m3⟩ := this
        refine ⟨mid, m1, ?_, ?_⟩
        · rw [m2]; simp; omega
        · simp only [pct_cons, if_true]
          cases hr : pct rest with
          | none => rw [hr] at m3; simpa using m3
          | some d =>
            rw [hr] at m3
            simpa [List.append_assoc] using m3

theorem decodeMem_spec (pre src post : Bytes) :
    let r := decodeMem (pre ++ src ++ post) pre.length (pre.length + src.length)
    ∃ mid : Bytes, r.1 = pre ++ mid ++ post ∧ mid.length = src.length ∧
      match Decode src with
      | none => r.2 = none
      | some d => r.2 = some (pre.length, pre.length + d.length) ∧ mid.take d.length = d := by
  have := decodeMemLoop_spec (src.length + 1) pre [] [] src post (by omega) (by simp)
  simp only [decodeMem, Decode_eq]
  simpa using this

end Indigo.UriDecode
