import Verif.Model.Method
import Verif.Model.Proto
import Verif.Spec.Tokens

namespace Indigo
open Indigo.Spec

theorem rune_first {c : Byte} (h : c.toNat < 128) (x : Byte) (y : Bytes) : isSpaceRune (c :: x :: y) = false := by
  have h1 : c ≠ 0xC2 := by rintro rfl; revert h; decide
  have h2 : c ≠ 0xE1 := by rintro rfl; revert h; decide
  have h3 : c ≠ 0xE2 := by rintro rfl; revert h; decide
  have h4 : c ≠ 0xE3 := by rintro rfl; revert h; decide
  cases y with
  | nil => simp [isSpaceRune, h1]
  | cons z zs =>
    cases zs with
    | nil => simp [isSpaceRune, h2, h3, h4]
    | cons _ _ => rfl

theorem rune_last {c : Byte} (h : c.toNat < 128) : (∀ x, isSpaceRune [x, c] = false) ∧ ∀ x y, isSpaceRune [x, y, c] = false := by
  have hc : ∀ k : Byte, 128 ≤ k.toNat → c ≠ k := by rintro k hk rfl; omega
  have hle : ∀ k : Byte, 128 ≤ k.toNat → ¬ k ≤ c := by intro k hk; rw [UInt8.le_iff_toNat_le]; omega
  refine ⟨fun x => ?_, fun x y => ?_⟩
  · simp [isSpaceRune, hc 0x85 (by decide), hc 0xA0 (by decide)]
  · simp [isSpaceRune, hc 0x80 (by decide), hc 0xA8 (by decide), hc 0xA9 (by decide), hc 0xAF (by decide), hc 0x9F (by decide)]
    intro _ _ h
    exact absurd h (hle 0x80 (by decide))

theorem width_left {c : Byte} (h : c.toNat < 128) (s : Bytes) :
    spaceWidth ((c :: s).take 1) ((c :: s).take 2) ((c :: s).take 3) = if isSpaceByte c then 1 else 0 := by
  unfold spaceWidth
  cases hs : isSpaceByte c with
  | true => simp [isSpaceRune, hs]
  | false =>
    cases s with
    | nil => simp [isSpaceRune, hs]
    | cons x s =>
      have := rune_first h x []
      have := rune_first h x (s.take 1)
      simp_all [isSpaceRune]

theorem width_right {c : Byte} (h : c.toNat < 128) (s : Bytes) :
    spaceWidth ((s ++ [c]).drop ((s ++ [c]).length - 1)) ((s ++ [c]).drop ((s ++ [c]).length - 2)) ((s ++ [c]).drop ((s ++ [c]).length - 3)) =
      if isSpaceByte c then 1 else 0 := by
  have e1 : (s ++ [c]).drop ((s ++ [c]).length - 1) = [c] := by simp
  rw [e1]
  unfold spaceWidth
  cases hs : isSpaceByte c with
  | true => simp [isSpaceRune, hs]
  | false =>
    have hone : isSpaceRune [c] = false := hs
    rcases List.eq_nil_or_concat s with rfl | ⟨s, x, rfl⟩
    · simp [hone]
    · rcases List.eq_nil_or_concat s with rfl | ⟨s, y, rfl⟩
      · simp [hone, (rune_last h).1]
      · have e2 : (((s.concat y).concat x) ++ [c]).drop ((((s.concat y).concat x) ++ [c]).length - 2) = [x, c] := by
          rw [show ((s.concat y).concat x) ++ [c] = (s ++ [y]) ++ [x, c] by simp]
          exact List.drop_left' (by simp)
        have e3 : (((s.concat y).concat x) ++ [c]).drop ((((s.concat y).concat x) ++ [c]).length - 3) = [y, x, c] := by
          rw [show ((s.concat y).concat x) ++ [c] = s ++ [y, x, c] by simp]
          exact List.drop_left' (by simp)
        rw [e2, e3, hone, (rune_last h).1, (rune_last h).2]
        simp

theorem trimLeft_ows (n : Nat) (a x : Bytes) (ha : ∀ c ∈ a, isOWS c) : trimSpaceLeft (a.length + n) (a ++ x) = trimSpaceLeft n x := by
  induction a with
  | nil => simp
  | cons c cs ih =>
    have hc : c.toNat < 128 ∧ isSpaceByte c = true := by rcases ha c (by simp) with rfl | rfl <;> decide
    rw [List.length_cons, show cs.length + 1 + n = (cs.length + n) + 1 by omega, List.cons_append, trimSpaceLeft, width_left hc.1, hc.2]
    exact ih (fun d hd => ha d (by simp [hd]))

theorem trimRight_ows (n : Nat) (b x : Bytes) (hb : ∀ c ∈ b, isOWS c) : trimSpaceRight (b.length + n) (x ++ b) = trimSpaceRight n x := by
  induction hk : b.length generalizing b with
  | zero => rw [List.length_eq_zero_iff.1 hk]; simp
  | succ k ih =>
    rcases List.eq_nil_or_concat b with rfl | ⟨b', c, rfl⟩
    · simp at hk
    · have hc : c.toNat < 128 ∧ isSpaceByte c = true := by rcases hb c (by simp) with rfl | rfl <;> decide
      have hk' : b'.length = k := by simpa using hk
      rw [show k + 1 + n = (k + n) + 1 by omega, List.concat_eq_append, ← List.append_assoc, trimSpaceRight, width_right hc.1, hc.2]
      have : (x ++ b' ++ [c]).take ((x ++ b' ++ [c]).length - 1) = x ++ b' := List.take_left' (by simp)
      simp only [if_true, this]
      exact ih b' (fun d hd => hb d (by simp [hd])) hk'

theorem trimLeft_none (n : Nat) {c : Byte} (h : c.toNat < 128) (hs : isSpaceByte c = false) (s : Bytes) : trimSpaceLeft n (c :: s) = c :: s := by
  cases n with
  | zero => rfl
  | succ n => rw [trimSpaceLeft, width_left h, hs]; rfl

theorem trimRight_none (n : Nat) {c : Byte} (h : c.toNat < 128) (hs : isSpaceByte c = false) (s : Bytes) : trimSpaceRight n (s ++ [c]) = s ++ [c] := by
  cases n with
  | zero => rfl
  | succ n => rw [trimSpaceRight, width_right h, hs]; rfl

theorem trimSpace_padded {s t : Bytes} (h : Padded s t) (ht : IsToken t) : trimSpace s = t := by
  obtain ⟨a, b, ha, hb, rfl⟩ := h
  have htok : ∀ c ∈ t, c.toNat < 128 ∧ isSpaceByte c = false := by
    intro c hc
    obtain ⟨_, h1, h2⟩ := ht c hc
    have h32 : c ≠ 32 := by intro h; subst h; simp at h1
    have h13 : ¬ c ≤ 13 := by rw [UInt8.le_iff_toNat_le]; simp; omega
    refine ⟨by omega, ?_⟩
    simp [isSpaceByte, h32]
    intro _; exact UInt8.not_le.1 h13
  unfold trimSpace
  rw [show (a ++ t ++ b).length = a.length + (b.length + t.length) by simp; omega, List.append_assoc, trimLeft_ows _ _ _ ha]
  cases t with
  | nil =>
    have := trimLeft_ows 0 b [] hb
    simp only [List.append_nil, Nat.add_zero] at this
    rw [List.nil_append, List.length_nil, Nat.add_zero, this, trimSpaceLeft]
    generalize a.length + b.length = n
    cases n <;> rfl
  | cons c cs =>
    obtain ⟨h1, h2⟩ := htok c (by simp)
    rw [List.cons_append, trimLeft_none _ h1 h2, ← List.cons_append,
      show a.length + (b.length + (c :: cs).length) = b.length + (a.length + (c :: cs).length) by omega, trimRight_ows _ _ _ hb]
    rcases List.eq_nil_or_concat (c :: cs) with e | ⟨t, d, e⟩
    · simp at e
    · obtain ⟨h1, h2⟩ := htok d (by rw [e]; simp)
      rw [e, List.concat_eq_append, trimRight_none _ h1 h2]

theorem cut_list {s t r : Bytes} (h : Padded s t) (ht : IsToken t) :
    cut COMMA (s ++ 44 :: r) = some (s, r) := by
  apply cut_append
  intro hm
  obtain ⟨a, b, ha, hb, rfl⟩ := h
  simp only [List.mem_append] at hm
  rcases hm with (hm | hm) | hm
  · rcases ha _ hm with h | h <;> exact absurd h (by decide)
  · exact (ht _ hm).1 rfl
  · rcases hb _ hm with h | h <;> exact absurd h (by decide)

theorem cut_one {s t : Bytes} (h : Padded s t) (ht : IsToken t) : cut COMMA s = none := by
  apply cut_none.2
  intro hm
  obtain ⟨a, b, ha, hb, rfl⟩ := h
  simp only [List.mem_append] at hm
  rcases hm with (hm | hm) | hm
  · rcases ha _ hm with h | h <;> exact absurd h (by decide)
  · exact (ht _ hm).1 rfl
  · rcases hb _ hm with h | h <;> exact absurd h (by decide)

namespace Proto

theorem parseUpgradeToken_nil : parseUpgradeToken [] = Unknown := by decide

/-- The loop computes the first supported token. -/
theorem chooseUpgradeLoop_spec {s : Bytes} {ts : List Bytes} (h : ListText s ts)
    (ht : ∀ t ∈ ts, IsToken t) (fuel : Nat) (hf : s.length ≤ fuel) :
    chooseUpgradeLoop fuel s =
      ((ts.map parseUpgradeToken).find? (fun p => p ≠ Unknown)).getD Unknown := by
  induction h generalizing fuel with
  | @one s t hp =>
    have htt := ht t (by simp)
    cases fuel with
    | zero =>
      have : s = [] := List.eq_nil_of_length_eq_zero (by omega)
      subst this
      have : t = [] := by
        obtain ⟨a, b, _, _, h⟩ := hp
        have := congrArg List.length h
        simp at this
        exact List.eq_nil_of_length_eq_zero (by omega)
      subst this
      rfl
    | succ n =>
      simp only [chooseUpgradeLoop, cutbyte, cut_one hp htt, trimSpace_padded hp htt]
      by_cases hs : s.length = 0
      · have : s = [] := List.eq_nil_of_length_eq_zero hs
        subst this
        have : t = [] := by
          obtain ⟨a, b, _, _, h⟩ := hp
          have := congrArg List.length h
          simp at this
          exact List.eq_nil_of_length_eq_zero (by omega)
        subst this
        rfl
      · simp only [hs, if_false]
        by_cases hu : parseUpgradeToken t = Unknown
        · simp only [hu]
          cases n <;> simp [chooseUpgradeLoop, hu]
        · simp [hu]
  | @cons s t r ts hp hl ih =>
    have htt := ht t (by simp)
    cases fuel with
    | zero => simp at hf
    | succ n =>
      have hne : ¬ (s ++ 44 :: r).length = 0 := by simp
      simp only [chooseUpgradeLoop, cutbyte, cut_list hp htt, trimSpace_padded hp htt, hne, if_false]
      by_cases hu : parseUpgradeToken t = Unknown
      · simp only [hu]
        rw [if_neg (by simp), ih (fun t h => ht t (by simp [h])) n (by simp at hf; omega)]
        simp [hu]
      · simp [hu]

end Proto
end Indigo
