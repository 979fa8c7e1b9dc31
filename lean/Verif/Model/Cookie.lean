/-
Model of http/cookie/jar.go and of `Request.Cookies` (http/request.go).
-/
import Verif.Model.Request

namespace Indigo

namespace CookieJar

/-- http/cookie/jar.go:59-65 `stripSpace`. -/
def stripSpace : Bytes → Bytes
  | [] => []
  | c :: cs => if c = SP then cs else c :: cs

/-- http/cookie/jar.go:26-57 `Parse`; the second component tells whether `ErrBadCookie` is returned. The jar
is returned in any case because it is a pointer. Every iteration consumes at least the `=`, so that
`data.length` iterations are enough. -/
def parseLoop : Nat → Storage → Bytes → Storage × Bool
  | 0, jar, data => (jar, data.length ≠ 0)
  | fuel + 1, jar, data =>
    if data.length = 0 then (jar, false)
    else
      match cut EQUALS data with
      | none => (jar, true)
      | some (key, data) =>
        if key.length = 0 then (jar, true)
        else
          match cut SEMI data with
          | some (value, rest) => parseLoop fuel (jar.add key value) (stripSpace rest)
          | none => parseLoop fuel (jar.add key data) []

/-- http/cookie/jar.go:26-57 `Parse`. -/
def parse (jar : Storage) (data : Bytes) : Storage × Bool := parseLoop data.length jar data

/-- http/request.go:132-136: the loop over the `Cookie` headers. -/
def parseAll (jar : Storage) : List Bytes → Storage × Bool
  | [] => (jar, false)
  | v :: vs =>
    match parse jar v with
    | (jar, true) => (jar, true)
    | (jar, false) => parseAll jar vs

end CookieJar

/-- http/request.go:122-139 `Cookies`; the result `none` is the error `ErrBadCookie`. -/
def Request.cookies (F : Fold) (r : Request) : Option Storage × Request :=
  let jar := (r.jar.getD Storage.new).clear
  let (values, headers) := r.Headers.values F b!"cookie"
  match CookieJar.parseAll jar values with
  | (jar, true) => (none, { r with Headers := headers, jar := some jar })
  | (jar, false) => (some jar, { r with Headers := headers, jar := some jar })

end Indigo
