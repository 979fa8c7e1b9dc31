/-
C53: what `Escape` gives for every text.
-/
import Verif.Props.Escape
import Verif.Spec.Utf8

namespace Indigo.Props
open Indigo.Escape Spec

private theorem ofNat_toNat {n : Nat} (h : n < 256) : (UInt8.ofNat n).toNat = n := by
  simp [Nat.mod_eq_of_lt h]

private theorem isCont_nat (b : Byte) : isCont b = true ↔ 0x80 ≤ b.toNat ∧ b.toNat ≤ 0xBF := by
  simp [isCont, UInt8.le_iff_toNat_le]

private theorem second_nat (a b : Byte) : second a b = true ↔
    (a.toNat = 0xE0 → 0xA0 ≤ b.toNat) ∧ (a.toNat = 0xED → b.toNat ≤ 0x9F) ∧ (a.toNat = 0xF0 → 0x90 ≤ b.toNat) ∧
      (a.toNat = 0xF4 → b.toNat ≤ 0x8F) ∧ 0x80 ≤ b.toNat ∧ b.toNat ≤ 0xBF := by
  have e : ∀ k : Byte, a = k ↔ a.toNat = k.toNat := fun k => UInt8.toNat_inj.symm
  unfold second
  simp only [e, isCont_nat, apply_ite (· = true), Bool.and_eq_true, decide_eq_true_eq, UInt8.le_iff_toNat_le]
  simp
  split
  · omega
  · split
    · omega
    · split
      · omega
      · split <;> omega

private theorem lead_nat (k a : Byte) : k ≤ a ↔ k.toNat ≤ a.toNat := UInt8.le_iff_toNat_le

/-- A character in front is as wide as its encoding. -/
private theorem width_char (n : Nat) (h : IsScalar n) (rest : Bytes) : runeWidth (utf8 n ++ rest) = (utf8 n).length := by
  unfold IsScalar at h
  unfold utf8
  split
  · next h1 =>
    exact width_ascii _ rest (by rw [ofNat_toNat (by omega)]; omega)
  · split
    · have e1 := ofNat_toNat (n := 0xC0 + n / 64) (by omega)
      have e2 := ofNat_toNat (n := 0x80 + n % 64) (by omega)
      simp only [List.cons_append, List.nil_append, runeWidth, lead_nat, isCont_nat, e1, e2, List.length_cons, List.length_nil]
      rw [if_pos ⟨by simp; omega, by simp; omega, by omega⟩]
    · split
      · have e1 := ofNat_toNat (n := 0xE0 + n / 4096) (by omega)
        have e2 := ofNat_toNat (n := 0x80 + n / 64 % 64) (by omega)
        have e3 := ofNat_toNat (n := 0x80 + n % 64) (by omega)
        simp only [List.cons_append, List.nil_append, runeWidth, lead_nat, isCont_nat, second_nat, e1, e2, e3, List.length_cons, List.length_nil]
        rw [if_neg (by simp; omega), if_pos ⟨by simp, by simp; omega, by omega, by omega⟩]
      · have e1 := ofNat_toNat (n := 0xF0 + n / 262144) (by omega)
        have e2 := ofNat_toNat (n := 0x80 + n / 4096 % 64) (by omega)
        have e3 := ofNat_toNat (n := 0x80 + n / 64 % 64) (by omega)
        have e4 := ofNat_toNat (n := 0x80 + n % 64) (by omega)
        simp only [List.cons_append, List.nil_append, runeWidth, lead_nat, isCont_nat, second_nat, e1, e2, e3, e4, List.length_cons, List.length_nil]
        rw [if_neg (by simp; omega), if_neg (by simp; omega), if_pos ⟨by simp, by simp; omega, by omega, by omega, by omega⟩]

private theorem ofNat_eq {b : Byte} {n : Nat} (h : n = b.toNat) : UInt8.ofNat n = b := by
  subst h; simp

/-- What is wider than one byte is the encoding of a character. -/
private theorem width_one (c : Byte) (rest : Bytes) (h : ∀ n, IsScalar n → ¬ utf8 n <+: c :: rest) : runeWidth (c :: rest) = 1 := by
  have two : ∀ b t, rest = b :: t → ¬ (0xC2 ≤ c ∧ c ≤ 0xDF ∧ isCont b) := by
    rintro b t rfl h2
    simp only [lead_nat, isCont_nat] at h2
    simp at h2
    have e : utf8 ((c.toNat - 0xC0) * 64 + (b.toNat - 0x80)) = [c, b] := by
      unfold utf8
      rw [if_neg (by omega), if_pos (by omega), ofNat_eq (b := c) (by omega), ofNat_eq (b := b) (by omega)]
    exact h ((c.toNat - 0xC0) * 64 + (b.toNat - 0x80)) (.inl (by omega)) (by rw [e]; exact ⟨t, rfl⟩)
  have three : ∀ b d t, rest = b :: d :: t → ¬ (0xE0 ≤ c ∧ c ≤ 0xEF ∧ second c b ∧ isCont d) := by
    rintro b d t rfl h3
    simp only [lead_nat, isCont_nat, second_nat] at h3
    simp at h3
    have e : utf8 ((c.toNat - 0xE0) * 4096 + (b.toNat - 0x80) * 64 + (d.toNat - 0x80)) = [c, b, d] := by
      unfold utf8
      rw [if_neg (by omega), if_neg (by omega), if_pos (by omega), ofNat_eq (b := c) (by omega), ofNat_eq (b := b) (by omega),
        ofNat_eq (b := d) (by omega)]
    exact h ((c.toNat - 0xE0) * 4096 + (b.toNat - 0x80) * 64 + (d.toNat - 0x80)) (by unfold IsScalar; omega) (by rw [e]; exact ⟨t, rfl⟩)
  have four : ∀ b d g t, rest = b :: d :: g :: t → ¬ (0xF0 ≤ c ∧ c ≤ 0xF4 ∧ second c b ∧ isCont d ∧ isCont g) := by
    rintro b d g t rfl h4
    simp only [lead_nat, isCont_nat, second_nat] at h4
    simp at h4
    have e : utf8 ((c.toNat - 0xF0) * 262144 + (b.toNat - 0x80) * 4096 + (d.toNat - 0x80) * 64 + (g.toNat - 0x80)) = [c, b, d, g] := by
      unfold utf8
      rw [if_neg (by omega), if_neg (by omega), if_neg (by omega), ofNat_eq (b := c) (by omega), ofNat_eq (b := b) (by omega),
        ofNat_eq (b := d) (by omega), ofNat_eq (b := g) (by omega)]
    exact h ((c.toNat - 0xF0) * 262144 + (b.toNat - 0x80) * 4096 + (d.toNat - 0x80) * 64 + (g.toNat - 0x80)) (by unfold IsScalar; omega)
      (by rw [e]; exact ⟨t, rfl⟩)
  match rest, two, three, four with
  | [], _, _, _ => rfl
  | [b], two, _, _ => simp only [runeWidth]; rw [if_neg (two b _ rfl)]
  | [b, d], two, three, _ => simp only [runeWidth]; rw [if_neg (two b _ rfl), if_neg (three b d _ rfl)]
  | b :: d :: g :: t, two, three, four =>
    simp only [runeWidth]; rw [if_neg (two b _ rfl), if_neg (three b d _ rfl), if_neg (four b d g _ rfl)]

private theorem utf8_ne (n : Nat) : utf8 n ≠ [] := by
  unfold utf8
  split
  · simp
  · split
    · simp
    · split <;> simp

/-- How a piece of a text is to be shown: a single byte by `escapeText`, a longer character by a backslash, a question mark and,
though it is not to be there, its bytes after the first one. -/
def escapePiece : Bytes → Bytes
  | [c] => escapeText c
  | _ :: cs => b!"\\?" ++ cs
  | [] => []

/-- Every text has its pieces. -/
theorem C53_pieces (p : Bytes) : ∃ us, TextPieces p us := by
  have : ∀ k (p : Bytes), p.length ≤ k → ∃ us, TextPieces p us := by
    intro k
    induction k with
    | zero =>
      intro p h
      exact ⟨[], by rw [List.length_eq_zero_iff.1 (Nat.le_zero.1 h)]; exact .nil⟩
    | succ k ih =>
      intro p h
      cases p with
      | nil => exact ⟨_, .nil⟩
      | cons c cs =>
        by_cases hc : ∃ n, IsScalar n ∧ utf8 n <+: c :: cs
        · obtain ⟨n, hn, t, ht⟩ := hc
          have hl := List.length_pos_iff.2 (utf8_ne n)
          obtain ⟨us, hus⟩ := ih t (by have := congrArg List.length ht; simp at this h; omega)
          exact ⟨_, ht ▸ TextPieces.char n t us hn hus⟩
        · obtain ⟨us, hus⟩ := ih cs (by simpa using h)
          exact ⟨_, .stray c cs us (fun n hn hp => hc ⟨n, hn, hp⟩) hus⟩
  exact this _ p (Nat.le_refl _)

private theorem loop_skip (u rest pending buff : Bytes) :
    loop u.length (u ++ rest) pending buff = loop 0 rest (pending ++ u) buff := by
  induction u generalizing pending with
  | nil => simp
  | cons c cs ih => simp [loop, ih]

private theorem loop_piece {c : Byte} {u rest : Bytes} (h : runeWidth (c :: (u ++ rest)) = u.length + 1) (pending buff : Bytes) :
    ∃ pending' buff', loop 0 (c :: (u ++ rest)) pending buff = loop 0 rest pending' buff' ∧
      buff' ++ pending' = buff ++ pending ++ (escapeText c ++ u) ∧ (buff' = [] → buff = [] ∧ escapeText c ++ u = c :: u) := by
  by_cases hp : isASCIIPrintable c = true
  · have hc : escapeText c = [c] := if_pos ((printable_iff c).1 hp)
    refine ⟨pending ++ [c] ++ u, buff, ?_, by simp [hc], fun h => ⟨h, by simp [hc]⟩⟩
    simp only [loop, hp, if_true, h]
    exact loop_skip u rest _ _
  · have hc := escapeText_unprintable c hp
    refine ⟨[] ++ u, buff ++ pending ++ [92, escapeByte c], ?_, by simp [hc], fun h => by simp at h⟩
    simp only [loop, hp, h]
    exact loop_skip u rest _ _

private theorem first_byte (n : Nat) (c : Byte) (u : Bytes) (h : IsScalar n) (e : utf8 n = c :: u) :
    escapeText c ++ u = escapePiece (utf8 n) := by
  rw [e]
  cases u with
  | nil => simp [escapePiece]
  | cons d ds =>
    have : 128 ≤ c.toNat := by
      unfold IsScalar at h
      unfold utf8 at e
      split at e
      · simp at e
      · split at e
        · injection e with e; rw [← e, ofNat_toNat (by omega)]; omega
        · split at e
          · injection e with e; rw [← e, ofNat_toNat (by omega)]; omega
          · injection e with e; rw [← e, ofNat_toNat (by omega)]; omega
    have he : ∀ c : Byte, 128 ≤ c.toNat → escapeText c = b!"\\?" := byte_forall (by decide +kernel)
    rw [he c this]; rfl

private theorem loop_pieces {p : Bytes} {us : List Bytes} (h : TextPieces p us) (pending buff : Bytes) :
    (loop 0 p pending buff).1 ++ (loop 0 p pending buff).2 = buff ++ pending ++ us.flatMap escapePiece ∧
      ((loop 0 p pending buff).1 = [] → buff = [] ∧ us.flatMap escapePiece = p) := by
  induction h generalizing pending buff with
  | nil => simp [loop]
  | char n rest us hn _ ih =>
    have hw := width_char n hn rest
    cases e : utf8 n with
    | nil => exact absurd e (utf8_ne n)
    | cons c u =>
      have hf := first_byte n c u hn e
      rw [e] at hw hf
      obtain ⟨p', b', e1, e2, e3⟩ := loop_piece (c := c) (u := u) (rest := rest) hw pending buff
      obtain ⟨h1, h2⟩ := ih p' b'
      rw [List.cons_append, e1]
      refine ⟨by rw [h1, e2]; simp [← hf], fun h0 => ?_⟩
      obtain ⟨h3, h4⟩ := h2 h0
      obtain ⟨h5, h6⟩ := e3 h3
      exact ⟨h5, by rw [List.flatMap_cons, ← hf, h6, h4]; rfl⟩
  | stray c rest us hs _ ih =>
    have hw := width_one c rest hs
    obtain ⟨p', b', e1, e2, e3⟩ := loop_piece (c := c) (u := []) (rest := rest) (by simpa using hw) pending buff
    simp only [List.nil_append] at e1
    obtain ⟨h1, h2⟩ := ih p' b'
    rw [e1]
    refine ⟨by rw [h1, e2]; simp [escapePiece], fun h0 => ?_⟩
    obtain ⟨h3, h4⟩ := h2 h0
    obtain ⟨h5, h6⟩ := e3 h3
    exact ⟨h5, by rw [List.flatMap_cons, h4]; simp only [List.append_nil] at h6; simp [escapePiece, h6]⟩

/-- C53: the output for every input, in terms of its characters. Bytes which are not printable ASCII appear in it exactly if the input has
characters of several bytes: those after the first one. -/
theorem C53_exact (p : Bytes) (us : List Bytes) (h : TextPieces p us) : Escape p = us.flatMap escapePiece := by
  obtain ⟨h1, h2⟩ := loop_pieces h [] []
  simp only [Escape]
  split
  · rename_i h0
    exact (h2 (List.length_eq_zero_iff.1 h0)).2.symm
  · simpa using h1

/-- C53: a text of characters, for instance the five bytes of `/é`, newline and `€`'s first two, which are no character. -/
example : TextPieces ([47, 0xC3, 0xA9, 10] ++ [0xE2, 0x82]) [[47], [0xC3, 0xA9], [10], [0xE2], [0x82]] ∧
    Escape ([47, 0xC3, 0xA9, 10] ++ [0xE2, 0x82]) = b!"/\\?" ++ [0xA9] ++ b!"\\n\\?\\?" := by
  have stray : ∀ c rest, runeWidth (c :: rest) = 1 → 128 ≤ c.toNat → ∀ n, IsScalar n → ¬ utf8 n <+: c :: rest := by
    rintro c rest h hc n hn ⟨t, ht⟩
    have := width_char n hn t
    rw [ht, h] at this
    cases e : utf8 n with
    | nil => exact absurd e (utf8_ne n)
    | cons d u =>
      rw [e] at this ht
      have hu : u = [] := by cases u <;> simp at this ⊢
      subst hu
      simp at ht
      unfold utf8 at e
      split at e
      · simp at e
        rw [← ht.1, ← e, ofNat_toNat (by omega)] at hc
        omega
      · split at e
        · simp at e
        · split at e <;> simp at e
  refine ⟨?_, by decide +kernel⟩
  exact .char 47 [0xC3, 0xA9, 10, 0xE2, 0x82] _ (.inl (by decide)) (.char 0xE9 [10, 0xE2, 0x82] _ (.inl (by decide))
    (.char 10 [0xE2, 0x82] _ (.inl (by decide)) (.stray _ _ _ (stray _ _ (by decide +kernel) (by decide))
      (.stray _ _ _ (stray _ _ (by decide +kernel) (by decide)) .nil))))

end Indigo.Props
