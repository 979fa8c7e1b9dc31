/-
Specification: what building a response may do to the memory of the application.
-/
import Verif.Model.ResponseMem

namespace Indigo.Spec.ResponseMem
open Indigo.ResponseMem

/-- The strings and slices the application has made, with the contents it has given them. -/
def allocated (calls : List Call) : List Bytes :=
  calls.flatMap (fun | .alloc content => [content] | _ => [])

/-- The part of an array of the application. -/
def part (made : List Bytes) (i off len : Nat) : Bytes := ((made[i]?.getD []).drop off).take len

/-- What the body is after one more call: the string or slice given, what has been written added to it, or the output of
the encoder alone. `made` are the application's strings and slices. -/
def saidNext (made : List Bytes) (body : Bytes) : Call → Bytes
  | .alloc _ => body
  | .string i off len => part made i off len
  | .bytes s => match s.ref with | .app i => part made i s.off s.len | .own _ => []
  | .write b => body ++ b
  | .json pieces => pieces.flatten
  | .clear => []

/-- What the body is after all calls. -/
def said (calls : List Call) : Bytes := calls.foldl (saidNext (allocated calls)) []

/-- The application passes its own strings and slices, which lie in arrays made before (`made` are those made before
the first call). Go guarantees this. -/
def Typed (made : List Bytes) : List Call → Prop
  | [] => True
  | .alloc content :: calls => Typed (made ++ [content]) calls
  | .string i off len :: calls => i < made.length ∧ off + len ≤ (made[i]?.getD []).length ∧ Typed made calls
  | .bytes ⟨.app i, off, len, cap⟩ :: calls =>
    i < made.length ∧ len ≤ cap ∧ off + cap ≤ (made[i]?.getD []).length ∧ Typed made calls
  | .bytes ⟨.own _, _, _, _⟩ :: _ => False
  | .write _ :: calls | .json _ :: calls | .clear :: calls => Typed made calls

/-- Slices are passed without spare capacity, and `JSON` is not called while the body is a string or slice of the
application (`lent`): not before `Clear`, or before something has been written to it. -/
def Considerate (lent : Bool) : List Call → Prop
  | [] => True
  | .alloc _ :: calls => Considerate lent calls
  | .string _ _ len :: calls => Considerate (len != 0) calls
  | .bytes s :: calls => s.cap = s.len ∧ Considerate (s.len != 0) calls
  | .write b :: calls => Considerate (lent && b.isEmpty) calls
  | .json _ :: calls => lent = false ∧ Considerate false calls
  | .clear :: calls => Considerate false calls

/-- The same calls on the builder with its body as a value (`Model/Response.lean`). -/
def asFields (text : GoErr → Bytes) (made : List Bytes) (f : Fields) : Call → Fields
  | .alloc _ => f
  | .string i off len => f.bytes (part made i off len)
  | .bytes s => f.bytes (match s.ref with | .app i => part made i s.off s.len | .own _ => [])
  | .write b => f.write b
  | .json pieces => f.json text pieces.flatten none
  | .clear => f.clear

end Indigo.Spec.ResponseMem
