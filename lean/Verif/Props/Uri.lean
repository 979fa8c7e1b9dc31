/-
Properties C09, C10, C11: URI percent-decoding.
-/
import Verif.Proofs.Uri

namespace Indigo.Props
open Indigo.Spec Indigo.UriDecode

/-- C09: whatever percent-encoding `e` of `s` a client chooses, decoding gives back `s`. -/
theorem C09_decode_inverts_encoding {e s : Bytes} (h : PctEncodes e s) : Decode e = some s := by
  rw [Decode_eq]; exact pct_of_encodes h

/-- C09: round trip through a concrete encoder, for every choice `p` of additionally escaped bytes. -/
theorem C09_roundtrip (p : Byte → Bool) (s : Bytes) : Decode (pctEncode p s) = some s :=
  C09_decode_inverts_encoding (pctEncode_encodes p s)

/-- C09: a string without escapes is returned unchanged. -/
theorem C09_unescaped (s : Bytes) (h : (37 : Byte) ∉ s) : Decode s = some s := by
  rw [Decode_eq]; exact pct_noesc s h

/-- C09: an encoding cut off inside an escape is an error. -/
theorem C09_truncated {e s : Bytes} (h : PctEncodes e s) :
    Decode (e ++ [37]) = none ∧ ∀ x, Decode (e ++ [37, x]) = none := by
  simp only [Decode_eq]
  induction h with
  | nil => exact ⟨rfl, fun x => rfl⟩
  | lit hc _ ih =>
    simp only [List.cons_append, pct_cons, hc, if_false]
    exact ⟨by simp [ih.1], fun x => by simp [ih.2 x]⟩
  | esc h1 h2 _ ih =>
    simp only [List.cons_append, pct_cons, if_true]
    exact ⟨by simp [ih.1], fun x => by simp [ih.2 x]⟩

example : PctEncodes b!"/a%20b%2Fc%2f" b!"/a b/c/" :=
  .lit (by decide) <| .lit (by decide) <| .esc (hi := 2) (lo := 0) (by decide) (by decide) <|
    .lit (by decide) <| .esc (hi := 2) (lo := 15) (by decide) (by decide) <| .lit (by decide) <|
    .esc (hi := 2) (lo := 15) (by decide) (by decide) .nil
example : Decode b!"/a%20b%2Fc%2f" = some b!"/a b/c/" := by decide
example : pctEncode (· == 32) b!"100% sure" = b!"100%25%20sure" := by decide

/-- C10 is false of the code: an escape with digits that are not hexadecimal is accepted
(and decodes to a NUL byte). -/
theorem C10_bad_escape_accepted_violation :
    ∃ e : Bytes, BadEscape e ∧ Decode e = some (b!"/a" ++ [0]) := by
  refine ⟨b!"/a%zz", ⟨b!"/a", b!"zz", rfl, ?_⟩, by decide⟩
  rintro ⟨h, l, rest, he, hh, hl⟩
  simp at he
  obtain ⟨rfl, rfl, _⟩ := he
  exact absurd hh (by decide)

/-- C10, the part that holds: decoding fails only for inputs with a bad escape, and every bad escape that
is *truncated* (fewer than two bytes after the percent sign, when the input is read left to right) makes
it fail. Missing: rejection of bad escapes whose digits are present but not hexadecimal. -/
theorem C10_bad_escape_partial (e : Bytes) :
    (Decode e = none → BadEscape e) ∧
    (∀ s t : Bytes, PctEncodes s t → ∀ tl : Bytes, tl.length < 2 → Decode (s ++ 37 :: tl) = none) := by
  constructor
  · rw [Decode_eq]
    induction hn : e.length using Nat.strongRecOn generalizing e with
    | ind n ih =>
      intro h
      cases e with
      | nil => simp [pct] at h
      | cons c cs =>
        rw [pct_cons] at h
        split at h
        · rename_i hc
          subst hc
          match cs with
          | [] => exact ⟨[], [], rfl, by rintro ⟨_, _, _, h, _⟩; simp at h⟩
          | [x] => exact ⟨[], [x], rfl, by rintro ⟨_, _, _, h, _⟩; simp at h⟩
          | x :: y :: rest =>
            simp at h
            obtain ⟨pre, post, h1, h2⟩ := ih rest.length (by simp at hn; omega) rest rfl h
            exact ⟨37 :: x :: y :: pre, post, by simp [h1], h2⟩
        · simp at h
          obtain ⟨pre, post, h1, h2⟩ := ih cs.length (by simp at hn; omega) cs rfl h
          exact ⟨c :: pre, post, by simp [h1], h2⟩
  · intro s t h tl htl
    have := C09_truncated h
    match tl with
    | [] => exact this.1
    | [x] => exact this.2 x
    | _ :: _ :: _ => simp at htl; omega

/-- C10, exactly what is decoded to what: a string is refused if and only if reading it from left to right leads to a percent
sign with fewer than two bytes after it, and everything else becomes the string in which each percent sign and the two bytes
after it are replaced by the byte with these digits, those which are not hexadecimal counting as zero. -/
theorem C10_exactly (e s : Bytes) : Decode e = some s ↔ Unescapes e s := by
  rw [Decode_eq]; exact ⟨unescapes_of_pct, pct_of_unescapes⟩

example : Unescapes b!"%4z%zz%zA" (b!"@" ++ [0, 10]) := .esc (.esc (.esc .nil))

example : Decode b!"/a%2" = none := by decide

/-- C11: decoding the range `[lo, hi)` of an array into the beginning of the same range gives the result of
decoding into fresh storage, changes no byte outside the range, and the returned slice lies inside it. -/
theorem C11_inplace_decoding_safe (mem : Bytes) (lo hi : Nat) (h : lo ≤ hi) (hm : hi ≤ mem.length) :
    let r := decodeMem mem lo hi
    r.1.length = mem.length ∧
    (∀ i, i < lo ∨ hi ≤ i → r.1[i]? = mem[i]?) ∧
    r.2.map (fun ab => (r.1.take ab.2).drop ab.1) = Decode ((mem.take hi).drop lo) ∧
    (∀ ab, r.2 = some ab → lo ≤ ab.1 ∧ ab.1 ≤ ab.2 ∧ ab.2 ≤ hi) := by
  obtain ⟨pre, src, post, rfl, rfl, rfl⟩ : ∃ pre src post : Bytes,
      mem = pre ++ src ++ post ∧ lo = pre.length ∧ hi = pre.length + src.length := by
    refine ⟨mem.take lo, (mem.take hi).drop lo, mem.drop hi, ?_, by simp; omega, by simp; omega⟩
    have : mem.take lo = (mem.take hi).take lo := by rw [List.take_take]; congr 1; omega
    rw [this, List.take_append_drop, List.take_append_drop]
  have hsrc : ((pre ++ src ++ post).take (pre.length + src.length)).drop pre.length = src := by
    rw [List.take_append_of_le_length (by simp), List.take_of_length_le (by simp)]
    simp
  rw [hsrc]
  obtain ⟨mid, h1, h2, h3⟩ := decodeMem_spec pre src post
  simp only at h1 h2 h3 ⊢
  have hgen : ∀ r : Bytes × Option (Nat × Nat), r.1 = pre ++ mid ++ post →
      (match Decode src with
        | none => r.2 = none
        | some d => r.2 = some (pre.length, pre.length + d.length) ∧ mid.take d.length = d) →
      r.1.length = (pre ++ src ++ post).length ∧
      (∀ i, i < pre.length ∨ pre.length + src.length ≤ i → r.1[i]? = (pre ++ src ++ post)[i]?) ∧
      r.2.map (fun ab => (r.1.take ab.2).drop ab.1) = Decode src ∧
      (∀ ab, r.2 = some ab → pre.length ≤ ab.1 ∧ ab.1 ≤ ab.2 ∧ ab.2 ≤ pre.length + src.length) := by
    rintro ⟨m', o⟩ rfl h3
    refine ⟨by simp; omega, ?_, ?_, ?_⟩
    · intro i hi
      rcases hi with hi | hi
      · simp only [List.append_assoc]
        rw [List.getElem?_append_left hi, List.getElem?_append_left hi]
      · rw [List.getElem?_append_right (by simp; omega), List.getElem?_append_right (by simp; omega)]
        congr 1; simp; omega
    · cases hd : Decode src with
      | none => rw [hd] at h3; simp at h3; simp [h3]
      | some d =>
        rw [hd] at h3
        obtain ⟨h3, h4⟩ := h3
        simp only at h3
        subst h3
        have hlen : d.length ≤ mid.length := by
          have := congrArg List.length h4
          simp at this; omega
        simp only [Option.map_some, Option.some.injEq]
        rw [List.append_assoc, List.take_append, List.take_of_length_le (by omega),
          List.drop_append, List.drop_of_length_le (by omega)]
        rw [show pre.length + d.length - pre.length = d.length by omega]
        rw [List.take_append_of_le_length hlen, h4]
        simp
    · intro ab hab
      cases hd : Decode src with
      | none => rw [hd] at h3; simp at h3; simp [h3] at hab
      | some d =>
        rw [hd] at h3
        have hlen := pct_length (by rw [← Decode_eq]; exact hd)
        have h5 : o = some (pre.length, pre.length + d.length) := h3.1
        have h6 : some (pre.length, pre.length + d.length) = some ab := by rw [← h5]; exact hab
        cases h6
        exact ⟨Nat.le_refl _, Nat.le_add_right _ _, by simp only; omega⟩
  exact hgen _ h1 h3

example : decodeMem b!"GET /a%20b%41c HTTP" 4 14 =
    (b!"GET /a bAcb%41c HTTP".take 5 ++ b!"a bAc" ++ b!"%41c HTTP", some (4, 10)) := by decide

end Indigo.Props
