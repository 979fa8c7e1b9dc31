/-
C85: starting a server with a self-signed certificate.
-/
import Verif.Model.Certs

namespace Indigo.Certs

/-- Contract of the cryptographic libraries: a certificate is loaded with its own key, not with another one, and not with an empty key
file. -/
structure Sound (X : Crypto) : Prop where
  own : ∀ n, X.loads (X.certPem n).flatten (X.keyPem n).flatten = true
  other : ∀ n m, n ≠ m → X.loads (X.certPem n).flatten (X.keyPem m).flatten = false
  empty : ∀ c, X.loads c [] = false

/-- The server got to listen, or to be refused. -/
def Pc.loaded : Pc → Bool
  | .serving _ _ => true
  | .refused => true
  | _ => false

/-- A start which did no harm: it got to loading the pair, or left no key file, or left the files as they were. -/
def Harmless (d : Disk) (r : Disk × Pc) : Prop := r.2.loaded = true ∨ r.1.key = none ∨ (r.1.cert = d.cert ∧ r.1.key = d.key)

/-- All starts were such. -/
def AllHarmless (X : Crypto) : Nat → Disk → List (List Outcome) → Prop
  | _, _, [] => True
  | n, d, os :: more => Harmless d (start X n d os) ∧ AllHarmless X (n + 1) (start X n d os).1 more

/-- How long an undisturbed start takes at most. -/
def enough (X : Crypto) (n : Nat) : Nat := (X.certPem n).length + (X.keyPem n).length + 11

end Indigo.Certs
