/-
Addresses: hosts and ports.
-/
import Verif.Spec.Head

namespace Indigo
open Indigo.Spec

/-- RFC 3986, 3.2.2 `dec-octet`: a number up to 255 in decimal, without leading zeros. -/
def Octet (s : Bytes) : Prop :=
  s ≠ [] ∧ s.all isDigit = true ∧ decimal s ≤ 255 ∧ (s.head? = some 48 → s = [48])

/-- RFC 3986, 3.2.2 `IPv4address`. -/
def IsIPv4 (s : Bytes) : Prop :=
  ∃ a b c d, Octet a ∧ Octet b ∧ Octet c ∧ Octet d ∧ s = a ++ DOT :: (b ++ DOT :: (c ++ DOT :: d))

/-- An address to listen at, as `net.Listen` has it: a host, which has no colon in it, and a colon and a port, or nothing. -/
structure HostPort (host port : Bytes) : Prop where
  host : COLON ∉ host
  port : port = [] ∨ ∃ p, port = COLON :: p

/-- A name which is neither that of the local host nor an IP address. -/
structure IsDomain (host : Bytes) : Prop where
  nonempty : host ≠ []
  ascii : ∀ c ∈ host, c.toNat < 128
  notLocal : lower host ≠ b!"localhost"
  notIP : ¬ IsIPv4 host

end Indigo
