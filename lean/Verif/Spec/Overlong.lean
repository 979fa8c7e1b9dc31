/-
Specification of chunked bodies which are longer than allowed.
-/
import Verif.Spec.Cut

namespace Indigo.Spec
open Serve (Setup)
variable {σ ρ : Type}

/-- The head `h` announces the chunked coding, and what comes after it (`given`) is, or begins, the coding of a body which is
longer than allowed. -/
def OverlongBody (F : Fold) (maxTokens maxBody : Nat) (h : Head) (given : Bytes) : Prop :=
  h.isChunked F maxTokens = true ∧ ∃ chunks coded missing after, ChunkedCoding chunks coded ∧
    given ++ missing = coded ++ after ∧ (missing = [] ∨ after = []) ∧ maxBody < chunks.flatten.length

/-- Handlers use neither the body nor the connection of the request: they leave them as they are. -/
def LeavesBody (E : Setup σ ρ) : Prop :=
  ∀ st req (w : Act.World σ), w.hijacked = false →
    ((E.router.onRequest st req).1.run E.P E.maxAlloc w).2 = w

end Indigo.Spec
