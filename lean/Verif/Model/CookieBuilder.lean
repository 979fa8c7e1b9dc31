/-
Model of http/cookie/cookie.go: building cookies.
-/
import Verif.Model.Response

namespace Indigo.CookieBuilder

/-- http/cookie/cookie.go:21-23 `New`. -/
def newCookie (name value : Bytes) : Cookie := { Name := name, Value := value }

/-- http/cookie/cookie.go:25-27 `Builder`. -/
structure Builder where
  cookie : Cookie
  deriving DecidableEq, Repr

/-- http/cookie/cookie.go:30-32 `Build`. -/
def build (name value : Bytes) : Builder := ⟨newCookie name value⟩

/-- http/cookie/cookie.go:34-37 `Path`. -/
def Builder.path (b : Builder) (path : Bytes) : Builder := { b with cookie := { b.cookie with Path := path } }

/-- http/cookie/cookie.go:39-42 `Domain`. -/
def Builder.domain (b : Builder) (domain : Bytes) : Builder := { b with cookie := { b.cookie with Domain := domain } }

/-- http/cookie/cookie.go:44-47 `Expires`; the time is the text it is rendered as (`Model/Response.lean`), `none` is the zero time. -/
def Builder.expires (b : Builder) (expires : Option Bytes) : Builder := { b with cookie := { b.cookie with Expires := expires } }

/-- http/cookie/cookie.go:53-56 `MaxAge`. -/
def Builder.maxAge (b : Builder) (maxAge : Int) : Builder := { b with cookie := { b.cookie with MaxAge := maxAge } }

/-- http/cookie/cookie.go:58-61 `SameSite`. -/
def Builder.sameSite (b : Builder) (sameSite : Bytes) : Builder := { b with cookie := { b.cookie with SameSite := sameSite } }

/-- http/cookie/cookie.go:63-66 `Secure`. -/
def Builder.secure (b : Builder) (secure : Bool) : Builder := { b with cookie := { b.cookie with Secure := secure } }

/-- http/cookie/cookie.go:68-71 `HttpOnly`. -/
def Builder.httpOnly (b : Builder) (httpOnly : Bool) : Builder := { b with cookie := { b.cookie with HttpOnly := httpOnly } }

/-- http/cookie/cookie.go:74-76 `Cookie`. -/
def Builder.done (b : Builder) : Cookie := b.cookie

/-- The methods of a builder which return a builder. -/
inductive Call
  | path (p : Bytes)
  | domain (d : Bytes)
  | expires (t : Option Bytes)
  | maxAge (n : Int)
  | sameSite (s : Bytes)
  | secure (b : Bool)
  | httpOnly (b : Bool)
  deriving DecidableEq, Repr

/-- One call. -/
def Builder.call (b : Builder) : Call → Builder
  | .path p => b.path p
  | .domain d => b.domain d
  | .expires t => b.expires t
  | .maxAge n => b.maxAge n
  | .sameSite s => b.sameSite s
  | .secure x => b.secure x
  | .httpOnly x => b.httpOnly x

/-- What a program does with builders, which it keeps in variables, numbered in order: begins a new one, or calls a method of the `i`-th one and keeps the result as a new one. -/
inductive Step
  | build (name value : Bytes)
  | call (i : Nat) (c : Call)
  deriving DecidableEq, Repr

/-- The variables after a step (methods have value receivers: the `i`-th builder is copied). -/
def step (vars : List Builder) : Step → List Builder
  | .build n v => vars ++ [build n v]
  | .call i c => match vars[i]? with
    | some b => vars ++ [b.call c]
    | none => vars

end Indigo.CookieBuilder
