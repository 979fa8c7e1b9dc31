/-
C53: escaped paths are safe to log.
-/
import Verif.Model.Escape

namespace Indigo.Props
open Indigo.Escape

/-- Printable ASCII: space to tilde. -/
def Printable (c : Byte) : Prop := 32 ≤ c.toNat ∧ c.toNat ≤ 126

theorem printable_iff : ∀ c : Byte, isASCIIPrintable c = true ↔ Printable c :=
  byte_forall (by unfold Printable; decide +kernel)

private theorem escapeByte_printable : ∀ c : Byte, isASCIIPrintable c = false →
    isASCIIPrintable (escapeByte c) = true :=
  byte_forall (by decide +kernel)

/-- C53: printable ASCII input is left unchanged. -/
theorem C53_printable_unchanged (p : Bytes) (h : ∀ c ∈ p, Printable c) : Escape p = p := by
  have key : ∀ (p pending buff : Bytes) (skip : Nat), (∀ c ∈ p, Printable c) →
      (loop skip p pending buff).1 = buff := by
    intro p
    induction p with
    | nil => intro pending buff skip _; simp [loop]
    | cons c cs ih =>
      intro pending buff skip h
      have hcs : ∀ c ∈ cs, Printable c := fun c hc => h c (by simp [hc])
      cases skip with
      | succ n => rw [loop]; exact ih _ _ _ hcs
      | zero =>
        have := (printable_iff c).2 (h c (by simp))
        simp only [loop, this, if_true]
        exact ih _ _ _ hcs
  have := key p [] [] 0 h
  simp [Escape, this]

example : Escape b!"/a b?c=~" = b!"/a b?c=~" := by decide

/-- C53 is false: of a two-byte character only the first byte is escaped, because the loop steps over whole
characters. -/
theorem C53_multibyte_violation :
    ¬ ∀ p : Bytes, ∀ c ∈ Escape p, Printable c := by
  intro h
  have := h [47, 0xC3, 0x9B, 109] 0x9B (by decide)
  simp [Printable] at this

/-- The usual letters for control characters; others are shown as a question mark. -/
def escapeLetter (c : Byte) : Byte :=
  match c.toNat with
  | 0 => '0'.toUInt8
  | 7 => 'a'.toUInt8
  | 8 => 'b'.toUInt8
  | 9 => 't'.toUInt8
  | 10 => 'n'.toUInt8
  | 11 => 'v'.toUInt8
  | 12 => 'f'.toUInt8
  | 13 => 'r'.toUInt8
  | _ => '?'.toUInt8

/-- The text by which a byte is to be replaced. -/
def escapeText (c : Byte) : Bytes := if 32 ≤ c.toNat ∧ c.toNat ≤ 126 then [c] else b!"\\" ++ [escapeLetter c]

theorem escapeText_unprintable : ∀ c : Byte, isASCIIPrintable c ≠ true → escapeText c = [92, escapeByte c] :=
  byte_forall (by decide +kernel)

theorem width_ascii (a : Byte) (rest : Bytes) (h : a.toNat < 128) : runeWidth (a :: rest) = 1 := by
  have h1 : ¬ (0xC2 : Byte) ≤ a := by rw [UInt8.le_iff_toNat_le]; simp; omega
  have h2 : ¬ (0xE0 : Byte) ≤ a := by rw [UInt8.le_iff_toNat_le]; simp; omega
  have h3 : ¬ (0xF0 : Byte) ≤ a := by rw [UInt8.le_iff_toNat_le]; simp; omega
  match rest with
  | [] => rfl
  | [b] => simp [runeWidth, h1]
  | [b, c] => simp [runeWidth, h1, h2]
  | b :: c :: d :: _ => simp [runeWidth, h1, h2, h3]

/-- C53, the part that holds for 7-bit input: every unprintable byte is replaced by a backslash and a letter,
and everything else is left as it is. -/
theorem C53_ascii_partial (p : Bytes) (h : ∀ c ∈ p, c.toNat < 128) :
    Escape p = p.flatMap escapeText ∧ ∀ c ∈ Escape p, Printable c := by
  have key : ∀ (p pending buff : Bytes), (∀ c ∈ p, c.toNat < 128) →
      (loop 0 p pending buff).1 ++ (loop 0 p pending buff).2 = buff ++ pending ++ p.flatMap escapeText ∧
      ((loop 0 p pending buff).1 = [] → buff = [] ∧ p.flatMap escapeText = p) := by
    intro p
    induction p with
    | nil => intro pending buff _; simp [loop]
    | cons c cs ih =>
      intro pending buff h
      have hcs : ∀ c ∈ cs, c.toNat < 128 := fun c hc => h c (by simp [hc])
      have hw := width_ascii c cs (h c (by simp))
      by_cases hp : isASCIIPrintable c = true
      · have hc : escapeText c = [c] := if_pos ((printable_iff c).1 hp)
        simp only [loop, hp, if_true, hw]
        obtain ⟨h1, h2⟩ := ih (pending ++ [c]) buff hcs
        refine ⟨by rw [h1]; simp [hc], fun h0 => ?_⟩
        obtain ⟨h3, h4⟩ := h2 h0
        exact ⟨h3, by simp [hc, h4]⟩
      · have hc : escapeText c = [92, escapeByte c] := escapeText_unprintable c hp
        simp only [loop, hp, hw]
        obtain ⟨h1, h2⟩ := ih [] (buff ++ pending ++ [92, escapeByte c]) hcs
        refine ⟨by simpa [hc] using h1, fun h0 => ?_⟩
        have := (h2 h0).1
        simp at this
  have hE : Escape p = p.flatMap escapeText := by
    obtain ⟨h1, h2⟩ := key p [] [] h
    simp only [Escape]
    split
    · rename_i h0
      rw [(h2 (List.length_eq_zero_iff.1 h0)).2]
    · simpa using h1
  refine ⟨hE, ?_⟩
  rw [hE]
  intro c hc
  obtain ⟨d, _, hd⟩ := List.mem_flatMap.1 hc
  by_cases hp : isASCIIPrintable d = true
  · have hpd := (printable_iff d).1 hp
    have ht : escapeText d = [d] := if_pos hpd
    rw [ht] at hd
    simp at hd; subst hd; exact hpd
  · have hnp : isASCIIPrintable d = false := by simpa using hp
    rw [escapeText_unprintable d hp] at hd
    simp at hd
    rcases hd with rfl | rfl
    · exact ⟨by decide, by decide⟩
    · exact (printable_iff _).1 (escapeByte_printable _ hnp)

example : Escape b!"/a\nb\t" = b!"/a\\nb\\t" ∧ (∀ c ∈ b!"/a\nb\t", c.toNat < 128) := by decide

/-- The bytes a rune consists of after its first one are between 0x80 and 0xBF. -/
private theorem width_cont (a : Byte) (rest : Bytes) :
    ∀ c ∈ rest.take (runeWidth (a :: rest) - 1), isCont c = true := by
  have hED : ∀ b : Byte, (0x80 ≤ b ∧ b ≤ 0x9F) ∨ (0xA0 ≤ b ∧ b ≤ 0xBF) ∨ (0x90 ≤ b ∧ b ≤ 0xBF) ∨
      (0x80 ≤ b ∧ b ≤ 0x8F) ∨ isCont b = true → isCont b = true := byte_forall (by decide +kernel)
  have h2 : ∀ b : Byte, second a b = true → isCont b = true := by
    intro b hb
    apply hED
    unfold second at hb
    (repeat' split at hb) <;> simp_all
  match rest with
  | [] => simp
  | [b] =>
    simp only [runeWidth]
    split
    · rename_i h; simpa using h.2.2
    · simp
  | [b, c] =>
    simp only [runeWidth]
    split
    · rename_i h; simpa using h.2.2
    · split
      · rename_i h
        simp
        exact ⟨h2 b h.2.2.1, h.2.2.2⟩
      · simp
  | b :: c :: d :: rest =>
    simp only [runeWidth]
    split
    · rename_i h; simpa using h.2.2
    · split
      · rename_i h
        simp
        exact ⟨h2 b h.2.2.1, h.2.2.2⟩
      · split
        · rename_i h
          simp
          exact ⟨h2 b h.2.2.1, h.2.2.2.1, h.2.2.2.2⟩
        · simp

/-- C53, the part that holds for every input: the output contains printable ASCII and, at most, bytes between
0x80 and 0xBF; in particular no ASCII control character (line feed, escape, delete) ever. -/
theorem C53_no_control_characters_partial (p : Bytes) :
    ∀ c ∈ Escape p, Printable c ∨ (0x80 ≤ c.toNat ∧ c.toNat ≤ 0xBF) := by
  have hcont : ∀ c : Byte, isCont c = true → 0x80 ≤ c.toNat ∧ c.toNat ≤ 0xBF := byte_forall (by decide +kernel)
  let Good : Byte → Prop := fun c => Printable c ∨ (0x80 ≤ c.toNat ∧ c.toNat ≤ 0xBF)
  have key : ∀ (p pending buff : Bytes) (skip : Nat), (∀ c ∈ p.take skip, isCont c = true) →
      (∀ c ∈ pending, Good c) → (∀ c ∈ buff, Good c) →
      (∀ c ∈ (loop skip p pending buff).1, Good c) ∧ (∀ c ∈ (loop skip p pending buff).2, Good c) ∧
      ((loop skip p pending buff).1 = [] → buff = [] ∧ ∀ c ∈ p, Good c) := by
    intro p
    induction p with
    | nil => intro pending buff skip _ h1 h2; simp [loop]; exact ⟨h2, h1⟩
    | cons c cs ih =>
      intro pending buff skip hs h1 h2
      cases skip with
      | succ n =>
        rw [loop]
        have hc : Good c := Or.inr (hcont c (hs c (by simp)))
        obtain ⟨a1, a2, a3⟩ := ih (pending ++ [c]) buff n (fun c hc => hs c (by simp [hc])) (by
          intro c' hc'; simp at hc'; rcases hc' with hc' | rfl
          · exact h1 _ hc'
          · exact hc) h2
        refine ⟨a1, a2, fun h0 => ⟨(a3 h0).1, ?_⟩⟩
        intro c' hc'
        simp at hc'
        rcases hc' with rfl | hc'
        · exact hc
        · exact (a3 h0).2 _ hc'
      | zero =>
        have hw := width_cont c cs
        by_cases hp : isASCIIPrintable c = true
        · have hc : Good c := Or.inl ((printable_iff c).1 hp)
          simp only [loop, hp, if_true]
          obtain ⟨a1, a2, a3⟩ := ih (pending ++ [c]) buff _ hw (by
            intro c' hc'; simp at hc'; rcases hc' with hc' | rfl
            · exact h1 _ hc'
            · exact hc) h2
          refine ⟨a1, a2, fun h0 => ⟨(a3 h0).1, ?_⟩⟩
          intro c' hc'
          simp at hc'
          rcases hc' with rfl | hc'
          · exact hc
          · exact (a3 h0).2 _ hc'
        · simp only [loop, hp]
          have hnp : isASCIIPrintable c = false := by simpa using hp
          obtain ⟨a1, a2, a3⟩ := ih [] (buff ++ pending ++ [92, escapeByte c]) _ hw (by simp) (by
            intro c' hc'
            simp at hc'
            rcases hc' with hc' | hc' | rfl | rfl
            · exact h2 _ hc'
            · exact h1 _ hc'
            · exact Or.inl ⟨by decide, by decide⟩
            · exact Or.inl ((printable_iff _).1 (escapeByte_printable _ hnp)))
          refine ⟨a1, a2, fun h0 => ?_⟩
          have := (a3 h0).1
          simp at this
  obtain ⟨h1, h2, h3⟩ := key p [] [] 0 (by simp) (by simp) (by simp)
  intro c hc
  simp only [Escape] at hc
  split at hc
  · rename_i h0
    exact (h3 (List.length_eq_zero_iff.1 h0)).2 c hc
  · simp at hc
    rcases hc with hc | hc
    · exact h1 c hc
    · exact h2 c hc

end Indigo.Props
