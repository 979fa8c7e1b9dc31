/-
What handlers do with files, and how many descriptors this should leave open.
-/
import Verif.Spec.Builder
import Verif.Spec.Exchange
import Verif.Model.Descriptors

namespace Indigo.Spec
open Indigo.Descriptors

/-- What a handler does with its response: methods, or starting anew with `Respond`. -/
inductive Doing
  | call (c : Call)
  | respond

/-- The effect on the response and on the open files; `none` is a panic. -/
def Doing.run (F : Fold) (text : GoErr → Bytes) (x : Resp × Files) : Doing → Option (Resp × Files)
  | .respond => some (Descriptors.clear x.1, x.2)
  | .call (.file a) => some (Descriptors.file text x.1 x.2 a)
  | .call (.attachment r n) => some (Descriptors.attachment x.1 r n, x.2)
  | .call c => (c.run F text x.1.fields).map (fun f => (⟨f, x.1.fd⟩, x.2))

/-- One thing after another. -/
def runDoings (F : Fold) (text : GoErr → Bytes) (x : Resp × Files) : List Doing → Option (Resp × Files)
  | [] => some x
  | d :: ds => (d.run F text x).bind (fun x => runDoings F text x ds)

/-- A call which opens a file: whatever there is at the path, unless opening fails. -/
def Doing.opens : Doing → Bool
  | .call (.file .noFile) => false
  | .call (.file _) => true
  | _ => false

/-- What a call makes of the question whether the response is a file. -/
def Doing.decides : Doing → Option Bool
  | .respond => some false
  | .call (.attachment _ _) => some false
  | .call (.file (.file _ _ _)) => some true
  | _ => none

/-- Whether the response is a file in the end. -/
def answersFile (ds : List Doing) : Bool := lastOr false (ds.map Doing.decides)

end Indigo.Spec
