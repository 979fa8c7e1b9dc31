/-
Contracts of external libraries which are not in the sandbox:
`github.com/indigo-web/utils/strcomp` and `github.com/indigo-web/utils/buffer`.
-/
import Verif.Base.Bytes

namespace Indigo

/-- Letters, digits, `-`, `.` and `:`: the alphabet of all header names, tokens and hosts that the
code itself compares with `strcomp.EqualFold`. -/
def isPlainTok (c : Byte) : Bool :=
  (97 ≤ c && c ≤ 122) || (65 ≤ c && c ≤ 90) || (48 ≤ c && c ≤ 57) || c == 45 || c == 46 || c == 58

/-- Contract of `strcomp.EqualFold` (external): a bytewise comparison through some fold function
which identifies letter cases and, on letters, digits, `-`, `.` and `:`, identifies nothing else.
(`x|0x20` and exact ASCII lowering both satisfy it, see `Fold.or20` and `Fold.ascii`.) -/
structure Fold where
  f : Byte → Byte
  case_insensitive : ∀ c, f (lowerByte c) = f c
  separates : ∀ a b, isPlainTok a = true → isPlainTok b = true → f a = f b →
    lowerByte a = lowerByte b

/-- `strcomp.EqualFold(a, b)`. -/
def Fold.eq (F : Fold) (a b : Bytes) : Bool := a.map F.f == b.map F.f

/-- External `buffer.Buffer`: one memory block with a maximal size and the offset of the segment
being written. -/
structure Buf where
  mem : Bytes := []
  start : Nat := 0
  max : Nat
  deriving DecidableEq, Repr

namespace Buf

/-- `buffer.Buffer.Append`: refuses (returning false) if the total length would exceed the maximum. -/
def append (b : Buf) (d : Bytes) : Option Buf :=
  if b.mem.length + d.length > b.max then none else some { b with mem := b.mem ++ d }

/-- The segment being written. -/
def seg (b : Buf) : Bytes := b.mem.drop b.start

/-- `buffer.Buffer.SegmentLength`. -/
def segLen (b : Buf) : Nat := b.mem.length - b.start

/-- `buffer.Buffer.Finish`: returns the current segment and starts the next one. -/
def finish (b : Buf) : Bytes × Buf := (b.seg, { b with start := b.mem.length })

/-- `buffer.Buffer.Clear`. -/
def clear (b : Buf) : Buf := { b with mem := [], start := 0 }

end Buf

/-- `strcomp.EqualFold` as `a[i]|0x20 == b[i]|0x20` satisfies the contract. -/
def Fold.or20 : Fold where
  f c := c ||| 32
  case_insensitive := by
    intro c
    have : ∀ n : Fin 256, (lowerByte (UInt8.ofNat n.val) ||| 32) = (UInt8.ofNat n.val) ||| 32 := by
      decide +kernel
    have h := this ⟨c.toNat, c.toNat_lt⟩
    simpa using h
  separates := by
    have key : ∀ c : Byte, isPlainTok c = true → lowerByte c = c ||| 32 := by
      intro c
      have : ∀ n : Fin 256, isPlainTok (UInt8.ofNat n.val) = true →
          lowerByte (UInt8.ofNat n.val) = UInt8.ofNat n.val ||| 32 := by
        decide +kernel
      have h := this ⟨c.toNat, c.toNat_lt⟩
      simpa using h
    intro a b ha hb h
    rw [key a ha, key b hb, h]

/-- Exact ASCII case folding satisfies the contract. -/
def Fold.ascii : Fold where
  f := lowerByte
  case_insensitive := by
    intro c
    have : ∀ n : Fin 256, lowerByte (lowerByte (UInt8.ofNat n.val)) = lowerByte (UInt8.ofNat n.val) := by
      decide +kernel
    have h := this ⟨c.toNat, c.toNat_lt⟩
    simpa using h
  separates := by intro a b _ _ h; exact h

theorem Fold.eq_iff (F : Fold) (a b : Bytes) : F.eq a b = true ↔ a.map F.f = b.map F.f := by
  simp [Fold.eq]

theorem Fold.eq_refl (F : Fold) (a : Bytes) : F.eq a a = true := by simp [Fold.eq]

theorem Fold.eq_symm (F : Fold) {a b : Bytes} (h : F.eq a b = true) : F.eq b a = true := by
  simp [Fold.eq] at *; exact h.symm

theorem Fold.eq_trans (F : Fold) {a b c : Bytes} (h : F.eq a b = true) (h' : F.eq b c = true) :
    F.eq a c = true := by
  simp [Fold.eq] at *; exact h.trans h'

theorem Fold.eq_comm (F : Fold) (a b : Bytes) : F.eq a b = F.eq b a := by
  rw [Bool.eq_iff_iff]; exact ⟨F.eq_symm, F.eq_symm⟩

theorem Fold.map_lower (F : Fold) (a : Bytes) : (lower a).map F.f = a.map F.f := by
  simp [lower, F.case_insensitive]

/-- Strings equal up to ASCII case are equal for `EqualFold`. -/
theorem Fold.eq_of_lower (F : Fold) {a b : Bytes} (h : lower a = lower b) : F.eq a b = true := by
  rw [Fold.eq_iff, ← F.map_lower a, ← F.map_lower b, h]

/-- On letters, digits, `-`, `.` and `:`, `EqualFold` is exactly equality up to ASCII case. -/
theorem Fold.eq_iff_lower (F : Fold) {a b : Bytes} (ha : ∀ c ∈ a, isPlainTok c = true)
    (hb : ∀ c ∈ b, isPlainTok c = true) : F.eq a b = true ↔ lower a = lower b := by
  refine ⟨?_, F.eq_of_lower⟩
  rw [Fold.eq_iff]
  induction a generalizing b with
  | nil => intro h; simp at h; simp [h]
  | cons x xs ih =>
    intro h
    cases b with
    | nil => simp at h
    | cons y ys =>
      simp at h
      simp only [lower, List.map_cons, List.cons.injEq]
      refine ⟨F.separates _ _ (ha _ (by simp)) (hb _ (by simp)) h.1, ?_⟩
      exact ih (fun c hc => ha c (by simp [hc])) (fun c hc => hb c (by simp [hc])) (by simpa using h.2)

end Indigo
