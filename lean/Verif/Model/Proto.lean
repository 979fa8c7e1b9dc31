/-
Model of http/proto/proto.go and http/proto/upgrade.go.
-/
import Verif.Base.Bytes

namespace Indigo

/-- http/proto/proto.go:5 `Proto` is a uint8 bit mask. -/
abbrev Proto := UInt8

namespace Proto

/-! http/proto/proto.go:7-14 (`iota` is 1 on the line of HTTP10). -/
abbrev Unknown : Proto := 0
abbrev HTTP10 : Proto := 2
abbrev HTTP11 : Proto := 4
abbrev HTTP2 : Proto := 8
abbrev HTTP1 : Proto := 6

/-- http/proto/proto.go:18: the array of `String`; entries not listed are "". -/
def stringLUT : List Bytes := [[], [], b!"HTTP/1.0 ", [], b!"HTTP/1.1 ", [], [], [], b!"HTTP/2 "]

/-- http/proto/proto.go:17-24 `String` (with trailing space); `none` is a panic (an index out of range). -/
def toBytes? (p : Proto) : Option Bytes := if p.toNat ≥ stringLUT.length then some [] else stringLUT[p.toNat]?

/-- http/proto/proto.go:17-24 `String`, which does not panic (C16). -/
def toBytes (p : Proto) : Bytes := (toBytes? p).getD []

/-- http/proto/proto.go:33-36: `majorMinorVersionLUT`; entries not listed are Unknown. -/
def majorMinorVersionLUT : List (List Proto) :=
  [.replicate 10 Unknown, [HTTP10, HTTP11] ++ .replicate 8 Unknown, [HTTP2] ++ .replicate 9 Unknown] ++ .replicate 7 (.replicate 10 Unknown)

/-- http/proto/proto.go:46-52 `Parse`; `none` is a panic (an index out of range). -/
def parse? (major minor : UInt8) : Option Proto :=
  if major > 9 ∨ minor > 9 then some Unknown
  else majorMinorVersionLUT[major.toNat]?.bind (·[minor.toNat]?)

/-- http/proto/proto.go:46-52 `Parse`, which does not panic (C16). -/
def parse (major minor : UInt8) : Proto := (parse? major minor).getD Unknown

/-- http/proto/proto.go:38-44 `FromBytes`: length 8, prefix `HTTP/`, bytes 5 and 7 are the version
digits; byte 6 is not looked at. The subtraction is on uint8 and wraps around. -/
def fromBytes (raw : Bytes) : Proto :=
  match raw with
  | [a, b, c, d, e, major, _, minor] =>
    if [a, b, c, d, e] = b!"HTTP/" then parse (major - 48) (minor - 48) else Unknown
  | _ => Unknown

/-- http/proto/upgrade.go:36-44 `cutbyte`. -/
def cutbyte (str : Bytes) (sep : Byte) : Bytes × Bytes :=
  match cut sep str with
  | some (a, b) => (a, b)
  | none => (str, [])

end Proto

/-- ASCII white space as in `strings.TrimSpace`: `\t \n \v \f \r` and space. -/
def isSpaceByte (c : Byte) : Bool := c == 32 || (9 ≤ c && c ≤ 13)

/-- The white space characters of `unicode.IsSpace` (Go standard library), encoded in UTF-8: those of ASCII; U+0085, U+00A0; U+1680, U+2000 to U+200A,
U+2028, U+2029, U+202F, U+205F, U+3000. -/
def isSpaceRune : Bytes → Bool
  | [c] => isSpaceByte c
  | [a, b] => a == 0xC2 && (b == 0x85 || b == 0xA0)
  | [a, b, c] =>
    (a == 0xE1 && b == 0x9A && c == 0x80) || (a == 0xE2 && b == 0x80 && ((0x80 ≤ c && c ≤ 0x8A) || c == 0xA8 || c == 0xA9 || c == 0xAF)) ||
      (a == 0xE2 && b == 0x81 && c == 0x9F) || (a == 0xE3 && b == 0x80 && c == 0x80)
  | _ => false

/-- The first of the given strings which is a white space character: how many bytes it has. -/
def spaceWidth (one two three : Bytes) : Nat :=
  if isSpaceRune one then 1 else if isSpaceRune two then 2 else if isSpaceRune three then 3 else 0

/-- `strings.TrimLeftFunc(s, unicode.IsSpace)` (Go standard library); every turn shortens `s`, so that `s.length` turns are enough. -/
def trimSpaceLeft : Nat → Bytes → Bytes
  | 0, s => s
  | fuel + 1, s =>
    match spaceWidth (s.take 1) (s.take 2) (s.take 3) with
    | 0 => s
    | n => trimSpaceLeft fuel (s.drop n)

/-- `strings.TrimRightFunc(s, unicode.IsSpace)` (Go standard library). `utf8.DecodeLastRuneInString` finds a character at the end just if its encoding is
there. -/
def trimSpaceRight : Nat → Bytes → Bytes
  | 0, s => s
  | fuel + 1, s =>
    match spaceWidth (s.drop (s.length - 1)) (s.drop (s.length - 2)) (s.drop (s.length - 3)) with
    | 0 => s
    | n => trimSpaceRight fuel (s.take (s.length - n))

/-- `strings.TrimSpace` (Go standard library). -/
def trimSpace (s : Bytes) : Bytes := trimSpaceRight s.length (trimSpaceLeft s.length s)

namespace Proto

/-- http/proto/upgrade.go:23-34 `parseUpgradeToken`. -/
def parseUpgradeToken (tok : Bytes) : Proto :=
  if tok = b!"http/1.0" ∨ tok = b!"HTTP/1.0" then HTTP10
  else if tok = b!"http/1.1" ∨ tok = b!"HTTP/1.1" then HTTP11
  else if tok = b!"h2c" ∨ tok = b!"H2C" then HTTP2
  else Unknown

/-- http/proto/upgrade.go:7-20: the loop of `ChooseUpgrade` (every iteration shortens `line`, so
`line.length` iterations are enough). -/
def chooseUpgradeLoop : Nat → Bytes → Proto
  | 0, _ => Unknown
  | fuel + 1, line =>
    if line.length = 0 then Unknown
    else
      let (token, line') := cutbyte line COMMA
      let p := parseUpgradeToken (trimSpace token)
      if p ≠ Unknown then p else chooseUpgradeLoop fuel line'

/-- http/proto/upgrade.go:7-20 `ChooseUpgrade`. -/
def chooseUpgrade (line : Bytes) : Proto := chooseUpgradeLoop line.length line

end Proto
end Indigo
