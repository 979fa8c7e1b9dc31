/-
Histories of responses on one connection.
-/
import Verif.Model.Serializer

namespace Indigo.Spec

/-- A response which has been written: to which request, with which protocol, and how the connection was. -/
structure Sent where
  proto : Proto
  req : Request
  response : Fields
  conn : Client

/-- The serializer of a connection after the responses of `history`. -/
def serializerAfter (F : Fold) (fileBuffSize : Int) (defaults : List (Bytes × Bytes)) (history : List Sent) :
    Serializer :=
  history.foldl (fun d s => (d.write F s.proto s.req s.response s.conn).ser) (Serializer.new fileBuffSize defaults)

/-- All headers set by the responses of a history. -/
def headersSet (history : List Sent) : List Pair := history.flatMap (fun s => s.response.Headers)

end Indigo.Spec
