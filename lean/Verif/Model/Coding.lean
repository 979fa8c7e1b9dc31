/-
Model of http/coding/codings.go.
-/
import Verif.Model.Maps

namespace Indigo

/-- http/coding/codings.go:16-20 `Coding`: an external compressor (its buffer is not modelled); errors are told
apart by a number. -/
structure Coding where
  token : Bytes
  encode : Bytes → Except Nat Bytes
  decode : Bytes → Except Nat Bytes

/-- Errors of the manager. -/
inductive CodingErr
  /-- http/coding/codings.go:8 `ErrUnknownToken` -/
  | unknownToken
  /-- an error of the compressor -/
  | coding (n : Nat)
  deriving DecidableEq

namespace Coding

/-- http/coding/codings.go:24-34 `Manager`, `NewManager`: the map of codings. -/
abbrev Manager := GoMap Bytes Coding

/-- http/coding/codings.go:37-50 `AddCoding`. -/
def Manager.addCoding (m : Manager) (c : Coding) : Manager :=
  let m := GoMap.set m c.token c
  if c.token = b!"gzip" then GoMap.set m b!"x-gzip" c
  else if c.token = b!"compress" then GoMap.set m b!"x-compress" c
  else m

/-- An error of the compressor as an error of the manager. -/
def lift : Except Nat Bytes → Except CodingErr Bytes
  | .ok b => .ok b
  | .error n => .error (.coding n)

/-- http/coding/codings.go:52-63 `Encode`. -/
def Manager.encode (m : Manager) (token input : Bytes) : Except CodingErr Bytes :=
  if token = b!"identity" ∨ input.length = 0 then .ok input
  else
    match GoMap.get? m token with
    | none => .error .unknownToken
    | some c => lift (c.encode input)

/-- http/coding/codings.go:65-76 `Decode`. -/
def Manager.decode (m : Manager) (token input : Bytes) : Except CodingErr Bytes :=
  if token = b!"identity" ∨ input.length = 0 then .ok input
  else
    match GoMap.get? m token with
    | none => .error .unknownToken
    | some c => lift (c.decode input)

end Coding
end Indigo
