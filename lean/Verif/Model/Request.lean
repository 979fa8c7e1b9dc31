/-
Model of http/request.go and http/encoding.go (data part).
-/
import Verif.Model.Status
import Verif.Model.Method
import Verif.Model.Proto
import Verif.Model.Query

namespace Indigo

/-- Go error values occurring in the modelled code. -/
inductive GoErr
  /-- a `status.HTTPError` -/
  | http (e : Status.HTTPError)
  /-- `io.EOF` -/
  | eof
  /-- any other error (network failure, timeout, application error), told apart by a number -/
  | other (n : Nat)
  deriving DecidableEq, Repr

/-- http/encoding.go:3-10 `Encoding`. -/
structure Encoding where
  Transfer : List Bytes := []
  Content : List Bytes := []
  Chunked : Bool := false
  HasTrailer : Bool := false
  deriving DecidableEq, Repr

/-- http/encryption/encryption.go: the encryption token (`Plain` = 0, `TLS` = 1, custom values). -/
abbrev EncToken := Nat

/-- http/request.go:190-202 `Environment`. -/
structure Environment where
  Error : Option GoErr := none
  AllowedMethods : Bytes := []
  Encryption : EncToken := 0
  AliasFrom : Bytes := []
  deriving DecidableEq, Repr

/-- http/request.go:23-70 `Request`. Body, client and response objects are part of the connection state
(`Model/Serve`). The context is an uninterpreted list of values; `context.Background()` is `[]`. -/
structure Request where
  Method : Indigo.Method := .Unknown
  Path : Bytes := []
  Query : Indigo.Query := {}
  Params : Storage := {}
  /-- http/request.go:84: HTTP/1.1 initially -/
  Proto : Indigo.Proto := Indigo.Proto.HTTP11
  Headers : Storage := {}
  Encoding : Indigo.Encoding := {}
  ContentLength : Int := 0
  ContentType : Bytes := []
  Connection : Bytes := []
  Upgrade : Indigo.Proto := Indigo.Proto.Unknown
  Remote : Bytes := []
  Ctx : List Bytes := []
  Env : Environment := {}
  wasHijacked : Bool := false
  jar : Option Storage := none
  deriving DecidableEq, Repr

/-- Go's `int` arithmetic: two's complement, 64 bits. -/
def wrap64 (x : Int) : Int := Int.bmod x (2 ^ 64)

/-- Conversion `uint(x)` of an `int`. -/
def toUint (x : Int) : Nat := (x % (2 ^ 64 : Int)).toNat

end Indigo
