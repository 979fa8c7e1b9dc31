/-
Specification: UTF-8, and how a text which may not be UTF-8 is cut into characters.
-/
import Verif.Base.Bytes

namespace Indigo.Spec

/-- The code points of characters: all up to 0x10FFFF, but no surrogates. -/
def IsScalar (n : Nat) : Prop := n < 0xD800 ∨ (0xE000 ≤ n ∧ n < 0x110000)

/-- The encoding of a code point (RFC 3629, section 3). -/
def utf8 (n : Nat) : Bytes :=
  if n < 0x80 then [UInt8.ofNat n]
  else if n < 0x800 then [UInt8.ofNat (0xC0 + n / 64), UInt8.ofNat (0x80 + n % 64)]
  else if n < 0x10000 then [UInt8.ofNat (0xE0 + n / 4096), UInt8.ofNat (0x80 + n / 64 % 64), UInt8.ofNat (0x80 + n % 64)]
  else [UInt8.ofNat (0xF0 + n / 262144), UInt8.ofNat (0x80 + n / 4096 % 64), UInt8.ofNat (0x80 + n / 64 % 64), UInt8.ofNat (0x80 + n % 64)]

/-- The pieces of a text: characters, and single bytes at which no character begins. -/
inductive TextPieces : Bytes → List Bytes → Prop
  | nil : TextPieces [] []
  | char (n : Nat) (rest : Bytes) (us : List Bytes) : IsScalar n → TextPieces rest us → TextPieces (utf8 n ++ rest) (utf8 n :: us)
  | stray (c : Byte) (rest : Bytes) (us : List Bytes) : (∀ n, IsScalar n → ¬ utf8 n <+: c :: rest) → TextPieces rest us →
      TextPieces (c :: rest) ([c] :: us)

end Indigo.Spec
