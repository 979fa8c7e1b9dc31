/-
Model of router/inbuilt/middleware: httpsonly.go, redirect.go, serverheader.go, customcontext.go.
-/
import Verif.Model.Router

namespace Indigo.Middleware

variable {m : Type → Type}

/-- http/encryption/encryption.go:6 `Plain`. -/
def Plain : EncToken := 0

/-- router/inbuilt/middleware/httpsonly.go:11-18 `HTTPOnlyParams`. -/
structure HTTPOnlyParams where
  RedirectTo : Bytes := []
  Port : Bytes := []
  deriving DecidableEq, Repr

/-- router/inbuilt/middleware/httpsonly.go:54-60 `removePort`. -/
def removePort (str : Bytes) : Bytes :=
  match cut COLON str with
  | some (a, _) => a
  | none => str

/-- router/inbuilt/middleware/httpsonly.go:62-68 `optional`. -/
def optional {α : Type} (custom : List α) (default_ : α) : α := custom.headD default_

/-- router/inbuilt/middleware/httpsonly.go:22-52 `HTTPSOnly`. (`Header` does not panic with one value.) -/
def httpsOnly [Monad m] (F : Fold) (optionalParams : List HTTPOnlyParams) : Router.Middleware m :=
  let params := optional optionalParams {}
  fun next request =>
    if request.Env.Encryption ≠ Plain then next request
    else
      let host := if params.RedirectTo.length = 0 then removePort (request.Headers.value F b!"host")
        else params.RedirectTo
      if params.RedirectTo.length = 0 ∧ host.length = 0 then
        pure ((Fields.new.code Status.BadRequest).bytes b!"no Host header", request)
      else
        let host := host ++ b!":" ++ params.Port
        let host := if request.Env.AliasFrom.length > 0 then host ++ request.Env.AliasFrom else host ++ request.Path
        let f := Fields.new.code Status.MovedPermanently
        pure ((f.header F b!"Location" [b!"https://" ++ host]).getD f, request)

/-- router/inbuilt/middleware/redirect.go:9-19 `Redirect`. -/
def redirect [Monad m] (F : Fold) (src dst : Bytes) : Router.Middleware m := fun next request =>
  if request.Path ≠ src then next request
  else
    let f := Fields.new.code Status.TemporaryRedirect
    pure ((f.header F b!"Location" [dst]).getD f, request)

/-- `strings.Join(customHeaders, " ")`. -/
def joinSp : List Bytes → Bytes
  | [] => []
  | [h] => h
  | h :: hs => h ++ SP :: joinSp hs

/-- router/inbuilt/middleware/serverheader.go:9 `DefaultServerHeader`. -/
def DefaultServerHeader : Bytes := b!"indigo"

/-- router/inbuilt/middleware/serverheader.go:11-21 `ServerHeader`. -/
def serverHeader [Monad m] (F : Fold) (customHeaders : List Bytes) : Router.Middleware m :=
  let value := joinSp customHeaders
  let value := if value.length = 0 then DefaultServerHeader else value
  fun next request => do
    let (f, request) ← next request
    pure ((f.header F b!"Server" [value]).getD f, request)

/-- router/inbuilt/middleware/customcontext.go:9-15 `CustomContext`. -/
def customContext (ctx : List Bytes) : Router.Middleware m := fun next request =>
  next { request with Ctx := ctx }

end Indigo.Middleware
