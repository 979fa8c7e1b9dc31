/-
Specification of clients which are never silent for long.
-/
import Verif.Model.Timed

namespace Indigo.Timed

/-- From the time `since` on, each byte comes less than `timeout` after the one before. -/
def Lively (timeout : Nat) : Nat → Arrivals → Prop
  | _, [] => True
  | since, (t, _) :: rest => since ≤ t ∧ t < since + timeout ∧ Lively timeout t rest

end Indigo.Timed
