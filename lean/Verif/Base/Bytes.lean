/-
Byte strings. Go's `[]byte` and `string` are both modelled as `List UInt8`.
-/

namespace Indigo

/-- Go `byte`. -/
abbrev Byte := UInt8

/-- Go `[]byte` / `string`. -/
abbrev Bytes := List UInt8

open Lean in
/-- `b!"GET"` is the explicit list of the bytes of an ASCII literal. -/
macro:max "b!" s:str : term => do
  let elems := s.getString.toUTF8.toList.map fun (u : UInt8) => Syntax.mkNumLit (toString u.toNat)
  `(([ $(elems.toArray),* ] : List UInt8))

/-- Frequently used bytes. -/
abbrev SP : Byte := 32
abbrev CR : Byte := 13
abbrev LF : Byte := 10
abbrev HT : Byte := 9
abbrev COLON : Byte := 58
abbrev COMMA : Byte := 44
abbrev SEMI : Byte := 59
abbrev SLASH : Byte := 47
abbrev DOT : Byte := 46
abbrev QUEST : Byte := 63
abbrev PERCENT : Byte := 37
abbrev AMP : Byte := 38
abbrev EQUALS : Byte := 61
abbrev PLUS : Byte := 43

/-- `i := bytes.IndexByte(data, c)` followed by the slicing `data[:i]`, `data[i+1:]`
(`none` for `-1`). Used for `bytes.IndexByte`/`strings.IndexByte` throughout. -/
def cut (c : Byte) : Bytes → Option (Bytes × Bytes)
  | [] => none
  | x :: xs =>
    if x = c then some ([], xs)
    else match cut c xs with
      | none => none
      | some (a, b) => some (x :: a, b)

/-- `i := bytes.LastIndexByte(data, c)` followed by `data[:i]`, `data[i+1:]` (`none` for `-1`). -/
def cutLast (c : Byte) : Bytes → Option (Bytes × Bytes)
  | [] => none
  | x :: xs =>
    match cutLast c xs with
    | some (a, b) => some (x :: a, b)
    | none => if x = c then some ([], xs) else none

/-- Drop leading bytes equal to space (`' '`). -/
def trimLeftSp : Bytes → Bytes
  | [] => []
  | x :: xs => if x = SP then trimLeftSp xs else x :: xs

/-- ASCII lower-casing of one byte. -/
def lowerByte (c : Byte) : Byte := if 65 ≤ c ∧ c ≤ 90 then c + 32 else c

/-- ASCII lower-casing. -/
def lower (s : Bytes) : Bytes := s.map lowerByte

/-! ### Lemmas about `cut` -/

theorem cut_some {c : Byte} {xs a b : Bytes} (h : cut c xs = some (a, b)) :
    xs = a ++ c :: b ∧ c ∉ a := by
  induction xs generalizing a b with
  | nil => simp [cut] at h
  | cons x xs ih =>
    simp only [cut] at h
    split at h
    · rename_i hx; simp at h; obtain ⟨rfl, rfl⟩ := h; simp [hx]
    · rename_i hx
      split at h
      · simp at h
      · rename_i a' b' heq
        simp at h
        obtain ⟨rfl, rfl⟩ := h
        obtain ⟨h1, h2⟩ := ih heq
        subst h1
        exact ⟨rfl, by simp [h2]; exact fun h => hx h.symm⟩

theorem cut_none {c : Byte} {xs : Bytes} : cut c xs = none ↔ c ∉ xs := by
  induction xs with
  | nil => simp [cut]
  | cons x xs ih =>
    simp only [cut]
    split
    · rename_i hx; simp [hx]
    · rename_i hx
      split
      · rename_i heq
        have := ih.1 heq
        simp [this]; exact fun h => hx h.symm
      · rename_i a b heq
        have : ¬ (c ∉ xs) := fun hn => by
          rw [ih.2 hn] at heq; simp at heq
        simp at this ⊢; exact fun _ => this

theorem cut_append {c : Byte} {a b : Bytes} (h : c ∉ a) : cut c (a ++ c :: b) = some (a, b) := by
  induction a with
  | nil => simp [cut]
  | cons x xs ih =>
    simp at h
    have hx : ¬ x = c := fun e => h.1 e.symm
    simp [cut, hx, ih h.2]

theorem cutLast_some {c : Byte} {xs a b : Bytes} (h : cutLast c xs = some (a, b)) :
    xs = a ++ c :: b ∧ c ∉ b := by
  induction xs generalizing a b with
  | nil => simp [cutLast] at h
  | cons x xs ih =>
    simp only [cutLast] at h
    split at h
    · rename_i a' b' heq
      simp at h; obtain ⟨rfl, rfl⟩ := h
      obtain ⟨h1, h2⟩ := ih heq
      subst h1; exact ⟨rfl, h2⟩
    · rename_i heq
      split at h
      · rename_i hx
        simp at h; obtain ⟨rfl, rfl⟩ := h
        refine ⟨by simp [hx], ?_⟩
        intro hm
        clear ih hx
        induction xs with
        | nil => simp at hm
        | cons y ys ih2 =>
          simp only [cutLast] at heq
          split at heq
          · simp at heq
          · rename_i h3
            split at heq
            · simp at heq
            · rename_i h4
              simp at hm
              rcases hm with rfl | hm
              · exact h4 rfl
              · exact ih2 h3 hm
      · simp at h

theorem cutLast_none {c : Byte} {xs : Bytes} : cutLast c xs = none ↔ c ∉ xs := by
  constructor
  · intro h
    induction xs with
    | nil => simp
    | cons x xs ih =>
      simp only [cutLast] at h
      split at h
      · simp at h
      · rename_i heq
        split at h
        · simp at h
        · rename_i hx
          simp [ih heq]; exact fun e => hx e.symm
  · intro h
    induction xs with
    | nil => rfl
    | cons x xs ih =>
      simp at h
      have hx : ¬ x = c := fun e => h.1 e.symm
      simp [cutLast, ih h.2, hx]

theorem cutLast_append {c : Byte} {a b : Bytes} (h : c ∉ b) :
    cutLast c (a ++ c :: b) = some (a, b) := by
  induction a with
  | nil => simp [cutLast, cutLast_none.2 h]
  | cons x xs ih => simp [cutLast, ih]

theorem cut_length {c : Byte} {xs a b : Bytes} (h : cut c xs = some (a, b)) :
    b.length < xs.length := by
  obtain ⟨h1, _⟩ := cut_some h
  subst h1; simp; omega

/-- A chunk which is a prefix of `a ++ c :: rest` either reaches the delimiter or is inside `a`. -/
theorem prefix_delim {c : Byte} {d a rest : Bytes} (h : d <+: a ++ c :: rest) :
    (∃ d', d = a ++ c :: d' ∧ d' <+: rest) ∨ d <+: a := by
  induction a generalizing d with
  | nil =>
    cases d with
    | nil => right; exact List.prefix_rfl
    | cons x xs =>
      left
      simp only [List.nil_append, List.cons_prefix_cons] at h
      exact ⟨xs, by simp [h.1], h.2⟩
  | cons y ys ih =>
    cases d with
    | nil => right; exact List.nil_prefix
    | cons x xs =>
      simp only [List.cons_append, List.cons_prefix_cons] at h
      obtain ⟨rfl, h2⟩ := h
      rcases ih h2 with ⟨d', h3, h4⟩ | h3
      · left; exact ⟨d', by simp [h3], h4⟩
      · right; exact List.cons_prefix_cons.2 ⟨rfl, h3⟩

theorem not_mem_of_prefix {c : Byte} {d a : Bytes} (h : d <+: a) (hn : c ∉ a) : c ∉ d :=
  fun hm => hn (h.subset hm)

theorem trimLeftSp_replicate (n : Nat) (s : Bytes) (h : s.head? ≠ some SP) :
    trimLeftSp (List.replicate n SP ++ s) = s := by
  induction n with
  | zero =>
    cases s with
    | nil => rfl
    | cons x xs =>
      simp at h
      simp [trimLeftSp, h]
  | succ n ih => simp [List.replicate_succ, trimLeftSp, ih]

end Indigo

namespace Indigo

/-- A statement about all bytes follows from the 256 cases. -/
theorem byte_forall {P : Byte → Prop} (h : ∀ n : Fin 256, P (UInt8.ofNat n.val)) : ∀ c, P c := by
  intro c
  have := h ⟨c.toNat, c.toNat_lt⟩
  simpa using this

end Indigo

deriving instance DecidableEq for Except
