/-
Specification of connections which are used for many requests.
-/
import Verif.Spec.Same

namespace Indigo.Spec
open Serve (Setup)

/-- What is written to a client sending the requests `ss` on one connection, and how serving it ends, if each request is treated as on a connection of its own: `own s` is what is written to a client sending only `s`, and how serving that client ends.
The requests are taken one by one, until one after which the server does not wait for another one (that is, serving does not end because nothing more can be read). -/
def inTurn (own : Sending → List Bytes × Option Serve.Ended) : List Sending → List Bytes × Option Serve.Ended
  | [] => ([], some .readFailed)
  | s :: ss => if (own s).2 = some .readFailed then ((own s).1 ++ (inTurn own ss).1, (inTurn own ss).2) else own s

end Indigo.Spec
