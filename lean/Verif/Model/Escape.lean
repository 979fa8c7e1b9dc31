/-
Model of http/path.go.
-/
import Verif.Base.Bytes

namespace Indigo.Escape

/-- A continuation byte of UTF-8. -/
def isCont (c : Byte) : Bool := 0x80 ≤ c && c ≤ 0xBF

/-- Whether `b` may follow the first byte `a` of a character of three or four bytes. -/
def second (a b : Byte) : Bool :=
  if a = 0xE0 then 0xA0 ≤ b && b ≤ 0xBF
  else if a = 0xED then 0x80 ≤ b && b ≤ 0x9F
  else if a = 0xF0 then 0x90 ≤ b && b ≤ 0xBF
  else if a = 0xF4 then 0x80 ≤ b && b ≤ 0x8F
  else isCont b

/-- How many bytes the `range` loop over a string advances at its front (Go specification, package
`unicode/utf8`: the width of the rune decoded there; an invalid sequence has width 1). -/
def runeWidth : Bytes → Nat
  | a :: b :: rest =>
    if 0xC2 ≤ a ∧ a ≤ 0xDF ∧ isCont b then 2
    else
      match rest with
      | c :: rest =>
        if 0xE0 ≤ a ∧ a ≤ 0xEF ∧ second a b ∧ isCont c then 3
        else
          match rest with
          | d :: _ => if 0xF0 ≤ a ∧ a ≤ 0xF4 ∧ second a b ∧ isCont c ∧ isCont d then 4 else 1
          | [] => 1
      | [] => 1
  | _ => 1

/-- http/path.go:33-35 `isASCIIPrintable`. -/
def isASCIIPrintable (c : Byte) : Bool := 0x20 ≤ c && c ≤ 0x7e

/-- http/path.go:37-70 `escapeTable` (unlisted entries are 0). -/
def escapeTable (b : Byte) : Byte :=
  if b = 0 then 48
  else if b = 7 then 97
  else if b = 8 then 98
  else if b = 9 then 116
  else if b = 0xA then 110
  else if b = 0xB then 118
  else if b = 0xC then 102
  else if b = 0xD then 114
  else if b ≤ 0x1F then 63
  else 0

/-- http/path.go:72-78 `escapeByte`. -/
def escapeByte (b : Byte) : Byte := if b < 0x7f then escapeTable b else 63

/-- http/path.go:13-24: the loop. `skip` bytes belong to the rune decoded last, so that no iteration starts at
them; `pending` is `p[offset:i]`. The result is `buff` and `p[offset:]`. -/
def loop : (skip : Nat) → Bytes → (pending buff : Bytes) → Bytes × Bytes
  | _, [], pending, buff => (buff, pending)
  | skip + 1, c :: cs, pending, buff => loop skip cs (pending ++ [c]) buff
  | 0, c :: cs, pending, buff =>
    if isASCIIPrintable c then loop (runeWidth (c :: cs) - 1) cs (pending ++ [c]) buff
    else loop (runeWidth (c :: cs) - 1) cs [] (buff ++ pending ++ [92, escapeByte c])

/-- http/path.go:7-31 `Escape`. -/
def Escape (p : Bytes) : Bytes :=
  let (buff, rest) := loop 0 p [] []
  if buff.length = 0 then p else buff ++ rest

end Indigo.Escape
