/-
Model of http/method/method.go and http/method/method_string.go.
-/
import Verif.Base.Bytes

namespace Indigo

/-- http/method/method.go:6-21: the enumeration (iota order). -/
inductive Method
  | Unknown | GET | HEAD | POST | PUT | DELETE | CONNECT | OPTIONS | TRACE | PATCH
  deriving DecidableEq, Repr, Inhabited

namespace Method

/-- http/method/method.go:25 `List`. -/
def list : List Method := [GET, HEAD, POST, PUT, DELETE, CONNECT, OPTIONS, TRACE, PATCH]

/-- http/method/method.go:27-60 `Parse`. -/
def parse (str : Bytes) : Method :=
  match str.length with
  | 3 => if str = b!"GET" then GET else if str = b!"PUT" then PUT else Unknown
  | 4 => if str = b!"POST" then POST else if str = b!"HEAD" then HEAD else Unknown
  | 5 => if str = b!"PATCH" then PATCH else if str = b!"TRACE" then TRACE else Unknown
  | 6 => if str = b!"DELETE" then DELETE else Unknown
  | 7 => if str = b!"CONNECT" then CONNECT else if str = b!"OPTIONS" then OPTIONS else Unknown
  | _ => Unknown

/-- http/method/method_string.go:23 `_Method_name`. -/
def nameBlob : Bytes := b!"UnknownGETHEADPOSTPUTDELETECONNECTOPTIONSTRACEPATCH"

/-- http/method/method_string.go:25 `_Method_index`. -/
def nameIndex : List Nat := [0, 7, 10, 14, 18, 21, 27, 34, 41, 46, 51]

/-- iota value of the method. -/
def toNat : Method → Nat
  | Unknown => 0 | GET => 1 | HEAD => 2 | POST => 3 | PUT => 4 | DELETE => 5
  | CONNECT => 6 | OPTIONS => 7 | TRACE => 8 | PATCH => 9

/-- http/method/method_string.go:27-32 `String` (for the enumerators; the default branch for
integers outside the enumeration is unreachable for `Method` values the code creates). -/
def toBytes (m : Method) : Bytes :=
  (nameBlob.take (nameIndex.getD (m.toNat + 1) 0)).drop (nameIndex.getD m.toNat 0)

end Method
end Indigo
