/-
Model of http/headers/valueaccessors.go.
-/
import Verif.Base.Num

namespace Indigo

/-- `i := strings.Index(s, sub)` followed by `s[i+len(sub):]` (`none` for `-1`). -/
def afterSub (sub : Bytes) : Bytes → Option Bytes
  | [] => if sub = [] then some [] else none
  | c :: cs => if sub.isPrefixOf (c :: cs) then some ((c :: cs).drop sub.length) else afterSub sub cs

/-- The decimal digits of a number, as `strconv.Atoi` accepts them (64 bit `int`); `none` for a syntax or a
range error. -/
def digitsValue : Nat → Bytes → Option Nat
  | acc, [] => some acc
  | acc, c :: cs => if 48 ≤ c ∧ c ≤ 57 then digitsValue (acc * 10 + (c.toNat - 48)) cs else none

/-- `strconv.Atoi` (Go standard library). -/
def atoi (s : Bytes) : Option Int :=
  match s with
  | [] => none
  | c :: cs =>
    let neg := c = 45
    let digits := if c = 45 ∨ c = 43 then cs else c :: cs
    if digits = [] then none
    else
      match digitsValue 0 digits with
      | none => none
      | some n =>
        if neg then (if n ≤ 2 ^ 63 then some (-(n : Int)) else none)
        else if n < 2 ^ 63 then some (n : Int) else none

namespace Headers

/-- http/headers/valueaccessors.go:63-69 `getParamEnd` and the slicing of line 57. -/
def paramEnd (str : Bytes) : Bytes :=
  match cut SEMI str with
  | some (a, _) => a
  | none => str

/-- http/headers/valueaccessors.go:53-61 `getParam`. -/
def getParam (str substr or : Bytes) : Bytes :=
  match afterSub substr str with
  | some rest => paramEnd rest
  | none => or

/-- http/headers/valueaccessors.go:17-23 `ValueOf`. -/
def valueOf (str : Bytes) : Bytes :=
  match cut SEMI str with
  | some (a, _) => a
  | none => str

/-- http/headers/valueaccessors.go:27-34 `QualityOf`. -/
def qualityOf (str : Bytes) : Int :=
  match atoi (getParam str b!";q=0." b!"9") with
  | none => 9
  | some q => q

/-- http/headers/valueaccessors.go:37-39 `CharsetOf`. -/
def charsetOf (str : Bytes) : Bytes := getParam str b!";charset=" b!"iso-8859-1"

/-- http/headers/valueaccessors.go:49-51 `ParamOfOr`. -/
def paramOfOr (str key or : Bytes) : Bytes := getParam str (b!";" ++ key ++ b!"=") or

/-- http/headers/valueaccessors.go:43-45 `ParamOf`. -/
def paramOf (str key : Bytes) : Bytes := paramOfOr str key []

end Headers
end Indigo
