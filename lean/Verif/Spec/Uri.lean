/-
Specification of percent-encoding (RFC 3986, section 2.1), independent of the model.
-/
import Verif.Base.Bytes

namespace Indigo.Spec

/-- Value of a hexadecimal digit, either case. -/
def hexVal (c : Byte) : Option Nat :=
  match (b!"0123456789abcdef").idxOf? c with
  | some i => some i
  | none => (b!"0123456789ABCDEF").idxOf? c

/-- `PctEncodes e s`: `e` is a percent-encoding of the byte string `s`. Any byte may be escaped, with
digits of either case; the percent sign must be. -/
inductive PctEncodes : Bytes → Bytes → Prop
  | nil : PctEncodes [] []
  | lit {c e s} : c ≠ 37 → PctEncodes e s → PctEncodes (c :: e) (c :: s)
  | esc {h l hi lo e s} : hexVal h = some hi → hexVal l = some lo → PctEncodes e s →
      PctEncodes (37 :: h :: l :: e) (UInt8.ofNat (16 * hi + lo) :: s)

/-- `Unescapes e s`: `s` is what the escapes of `e` stand for, a digit which is not hexadecimal counting as zero (such escapes
are not refused by the code, see `C10_bad_escape_accepted_violation`). If `e` is a percent-encoding, this is the string it
encodes (`PctEncodes.unescapes`). -/
inductive Unescapes : Bytes → Bytes → Prop
  | nil : Unescapes [] []
  | lit {c e s} : c ≠ 37 → Unescapes e s → Unescapes (c :: e) (c :: s)
  | esc {h l e s} : Unescapes e s →
      Unescapes (37 :: h :: l :: e) (UInt8.ofNat (16 * (hexVal h).getD 0 + (hexVal l).getD 0) :: s)

theorem PctEncodes.unescapes {e s : Bytes} (h : PctEncodes e s) : Unescapes e s := by
  induction h with
  | nil => exact .nil
  | lit hc _ ih => exact .lit hc ih
  | @esc a b _ _ _ _ h1 h2 _ ih => have := Unescapes.esc (h := a) (l := b) ih; rw [h1, h2] at this; exact this

/-- Upper-case hexadecimal digit. -/
def hexDigit (n : Nat) : Byte := (b!"0123456789ABCDEF").getD n 0

/-- A percent-encoder escaping the percent sign and the bytes selected by `p`. -/
def pctEncode (p : Byte → Bool) : Bytes → Bytes
  | [] => []
  | c :: cs =>
    if c = 37 ∨ p c = true then
      37 :: hexDigit (c.toNat / 16) :: hexDigit (c.toNat % 16) :: pctEncode p cs
    else c :: pctEncode p cs

/-- `e` contains a percent sign which is not followed by two hexadecimal digits. -/
def BadEscape (e : Bytes) : Prop :=
  ∃ pre post : Bytes, e = pre ++ 37 :: post ∧
    ¬ ∃ h l rest, post = h :: l :: rest ∧ (hexVal h).isSome ∧ (hexVal l).isSome

end Indigo.Spec
