/-
Specification of building cookies: what a chain of calls says about the cookie.
-/
import Verif.Model.CookieBuilder
import Verif.Spec.Response

namespace Indigo.Spec.CookieBuilder
open Indigo.CookieBuilder (Call Step)

/-- A cookie as its author describes it: name, value, and what is said about it, in order. -/
structure Description where
  name : Bytes
  value : Bytes
  said : List Call := []
  deriving DecidableEq, Repr

/-- The last of the things of a kind said. -/
def lastSaid (said : List Call) (kind : Call → Option α) : Option α := (said.filterMap kind).getLast?

def aPath : Call → Option Bytes | .path p => some p | _ => none
def aDomain : Call → Option Bytes | .domain d => some d | _ => none
def anExpires : Call → Option (Option Bytes) | .expires t => some t | _ => none
def aMaxAge : Call → Option Int | .maxAge n => some n | _ => none
def aSameSite : Call → Option Bytes | .sameSite s => some s | _ => none
def aSecure : Call → Option Bool | .secure b => some b | _ => none
def anHttpOnly : Call → Option Bool | .httpOnly b => some b | _ => none

/-- The attributes of a cookie, as a client is told: of each kind what was said last, in a fixed order; empty texts, the zero time, the age 0 and `false` are as good as not said; a negative age is told as 0 (under the name `MaxAge`, see `C34_max_age_violation`). -/
def attributes (said : List Call) : List (Bytes × Option Bytes) :=
  let text (name : Bytes) (v : Option Bytes) : List (Bytes × Option Bytes) := match v with | none => [] | some [] => [] | some t => [(name, some t)]
  let flag (name : Bytes) (v : Option Bool) : List (Bytes × Option Bytes) := match v with | some true => [(name, none)] | _ => []
  text b!"Path" (lastSaid said aPath) ++
  text b!"Domain" (lastSaid said aDomain) ++
  (match lastSaid said anExpires with | some (some t) => [(b!"Expires", some t)] | _ => []) ++
  (match lastSaid said aMaxAge with | none => [] | some n => if n = 0 then [] else if n < 0 then [(b!"MaxAge", some b!"0")] else [(b!"MaxAge", some (decBytes n.toNat))]) ++
  text b!"SameSite" (lastSaid said aSameSite) ++
  flag b!"Secure" (lastSaid said aSecure) ++
  flag b!"HttpOnly" (lastSaid said anHttpOnly)

/-- What a program has described after these steps, variable by variable: a new description, or one of those before with something more said. -/
def described (steps : List Step) : List Description :=
  steps.foldl (fun ds s => match s with
    | .build n v => ds ++ [⟨n, v, []⟩]
    | .call i c => match ds[i]? with
      | some d => ds ++ [⟨d.name, d.value, d.said ++ [c]⟩]
      | none => ds) []

/-- A text which survives the syntax of `Set-Cookie`: no semicolons, no line breaks, no white space at the end. -/
def Plain (t : Bytes) : Prop := 59 ∉ t ∧ 10 ∉ t ∧ 13 ∉ t ∧ t.getLast? ≠ some 32 ∧ t.getLast? ≠ some 9

/-- All texts survive, and there is no `=` in the name and no white space at its start. -/
structure Description.OK (d : Description) : Prop where
  name : Plain d.name ∧ 61 ∉ d.name ∧ d.name.head? ≠ some 32 ∧ d.name.head? ≠ some 9
  value : Plain d.value
  path : ∀ t, .path t ∈ d.said → Plain t
  domain : ∀ t, .domain t ∈ d.said → Plain t
  expires : ∀ t, .expires (some t) ∈ d.said → Plain t
  sameSite : ∀ t, .sameSite t ∈ d.said → Plain t

end Indigo.Spec.CookieBuilder
