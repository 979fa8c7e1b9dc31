/-
C84: what is read from a connection, if slices were values, which nothing can change.
-/
import Verif.Model.BodyMem

namespace Indigo.BodyMem
variable {σ : Type}

/-- `step`, with values: the methods of the body are those of `Model/Body.lean`, about which the properties of bodies (C18 to C24) are. -/
def valueStep (P : ChunkedParser σ) (maxAlloc : Nat) (s : BC σ) : Step → Body.Answer × BC σ
  | .head used =>
    let ((d, e), c) := s.2.read
    (.piece d e, (s.1, if e = none then c.unread (d.drop used) else c))
  | .request r => (.done none, (s.1.initFor r, s.2))
  | .call k => Body.call P maxAlloc s k

def valueRun (P : ChunkedParser σ) (maxAlloc : Nat) : List Step → BC σ → List Body.Answer
  | [], _ => []
  | k :: ks, s => (valueStep P maxAlloc s k).1 :: valueRun P maxAlloc ks (valueStep P maxAlloc s k).2

/-- Of the answers of `Read`, only how many bytes there are, and the error. -/
def blurred : Step → Body.Answer → Body.Answer
  | .call (.read _), .piece d e => .piece (List.replicate d.length 0) e
  | _, a => a

/-- A `Read` into `n` bytes which surely leaves nothing for later: it fills not everything, or gives an error. -/
def drained (n : Nat) : Body.Answer → Bool
  | .piece d e => decide (d.length < n) || e.isSome
  | _ => true

/-- What is left of what `Read` got from the connection: surely nothing; perhaps something; perhaps something, but other methods have read
from the connection since. -/
inductive Rest
  | nothing
  | something
  | outdated
  deriving DecidableEq

/-- After other methods than `Read`. -/
def Rest.outdate : Rest → Rest
  | .nothing => .nothing
  | _ => .outdated

/-- `Read` is not called after other methods, if something may be left of what it got before - until the next request. -/
def Tidy : Rest → List Step → List Body.Answer → Prop
  | rest, .call (.read n) :: ks, a :: as => rest ≠ .outdated ∧ Tidy (if drained n a then .nothing else .something) ks as
  | _, .request _ :: ks, _ :: as => Tidy .nothing ks as
  | rest, _ :: ks, _ :: as => Tidy rest.outdate ks as
  | _, _, _ => True

/-- Content lengths which can be allocated. -/
def Allocatable (maxAlloc : Nat) (ks : List Step) : Prop := ∀ r : Request, Step.request r ∈ ks → r.ContentLength ≤ (maxAlloc : Int)

/-- Everything fits the read buffer (the connection gives no more than is asked for). -/
def Fits (size : Nat) (conn : List (Bytes × Option GoErr)) : Prop := ∀ ev ∈ conn, ev.1.length ≤ size

end Indigo.BodyMem
