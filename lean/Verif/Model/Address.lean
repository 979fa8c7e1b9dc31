/-
Model of internal/address/address.go, router/inbuilt/uri/normalize.go and router/virtual/internal/domain/normalize.go.
-/
import Verif.Base.Bytes

namespace Indigo

namespace Address

/-- internal/address/address.go:8 `DefaultAddr`. -/
def DefaultAddr : Bytes := b!"0.0.0.0"

/-- internal/address/address.go:27-34 `stripPort`. -/
def stripPort (addr : Bytes) : Bytes :=
  match cut COLON addr with
  | some (a, _) => a
  | none => addr

/-- internal/address/address.go:10-17 `Normalize`. -/
def normalize (addr : Bytes) : Bytes :=
  if (stripPort addr).length = 0 then DefaultAddr ++ addr else addr

/-- `strings.EqualFold` (Go standard library) with an ASCII constant without the letter k: the only character besides the
ASCII letters which is equal to one of them is the long s (U+017F), in UTF-8 the two bytes here. -/
def longS : Bytes → Bytes
  | 0xC5 :: 0xBF :: rest => 115 :: longS rest
  | c :: rest => c :: longS rest
  | [] => []

/-- internal/address/address.go:19-21 `IsLocalhost`. -/
def isLocalhost (addr : Bytes) : Bool := lower (longS (stripPort addr)) == b!"localhost"

/-- `parseIPv4` of net/netip (Go standard library): the loop. `prev` is the byte before, `none` at the beginning. -/
def parseIPv4 (val pos digLen : Nat) (prev : Option Byte) : Bytes → Bool
  | [] => pos == 3
  | c :: cs =>
    if 48 ≤ c ∧ c ≤ 57 then
      if digLen = 1 ∧ val = 0 then false
      else if 255 < val * 10 + (c.toNat - 48) then false
      else parseIPv4 (val * 10 + (c.toNat - 48)) pos (digLen + 1) (some c) cs
    else if c = DOT then
      if prev = none ∨ cs = [] ∨ prev = some DOT then false
      else if pos = 3 then false
      else parseIPv4 0 (pos + 1) 0 (some c) cs
    else false

/-- internal/address/address.go:23-25 `IsIP`. Without a port there is no colon any more, so that `net.ParseIP` comes to
`parseIPv4`, if there is a dot, and to nil otherwise. (Without a dot, or with a percent sign, `parseIPv4` fails, too.) -/
def isIP (addr : Bytes) : Bool := parseIPv4 0 0 0 none (stripPort addr)

end Address

namespace UriNormalize

/-- router/inbuilt/uri/normalize.go:4-8: the loop, `i` counting down to 2. -/
def loop (path : Bytes) : Nat → Bytes
  | 0 => path
  | 1 => path
  | i + 2 => if path.getD (i + 2) 0 ≠ SLASH then path.take (i + 3) else loop path (i + 1)

/-- router/inbuilt/uri/normalize.go:3-11 `Normalize`. -/
def normalize (path : Bytes) : Bytes := loop path (path.length - 1)

end UriNormalize

namespace Domain

/-- router/virtual/internal/domain/normalize.go:10-22: the loop over the positions `i`, from the last one down.
The `break` inside of the `switch`'s sibling branch (line 20) leaves the loop; `break` of line 12 does too. -/
def loop (domain : Bytes) : Nat → Bytes
  | 0 => domain
  | i + 1 =>
    let c := domain.getD i 0
    if c = DOT then domain
    else if c = COLON then
      let port := domain.drop (i + 1)
      if port = b!"80" ∨ port = b!"443" then domain.take i else domain
    else loop domain i

/-- router/virtual/internal/domain/normalize.go:5-25 `Normalize`. -/
def normalize (domain : Bytes) : Bytes :=
  let domain := if b!"www.".isPrefixOf domain then domain.drop 4 else domain
  loop domain domain.length

/-- router/virtual/internal/domain/normalize.go:27-33 `TrimPort`. -/
def trimPort (domain : Bytes) : Bytes :=
  match cut COLON domain with
  | some (a, _) => a
  | none => domain

end Domain
end Indigo
