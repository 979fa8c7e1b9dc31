/-
Model of handlers which return nil: internal/protocol/http1/suit.go `notNil`, and the middlewares of router/inbuilt/middleware, which get such a response from
the handler they wrap. Elsewhere handlers always return a response.
-/
import Verif.Model.Recover

namespace Indigo.NilResponse

/-- Handlers which may return nil: `throw req` is nil, with the request as the handler leaves it. -/
abbrev Maybe := ExceptT Request Act

/-- internal/protocol/http1/suit.go:127-133 `notNil`, as called in lines 92 and 114: nil is replaced by `request.Respond()`. The routers pass on what their
handlers return (router/inbuilt/inbuilt.go:126, 146, 167; router/simple/simple.go:28, 34). -/
def notNil (h : Router.Handler Maybe) : Router.Handler Act := fun req =>
  Act.bind (h req).run (fun
    | .ok r => .ret r
    | .error req => .ret (Fields.new, req))

/-- A call of a method of a response: of nil, it panics (`r.fields`, http/response.go:84 and 223). -/
def deref (h : Router.Handler Maybe) : Router.Handler Maybe := fun req =>
  ExceptT.mk (Act.bind (h req).run (fun
    | .ok r => .ret (.ok r)
    | .error _ => .panic))

/-- The middlewares which come with the router. -/
inductive Bundled
  | redirect (src dst : Bytes)
  | httpsOnly (params : List Middleware.HTTPOnlyParams)
  | customContext (ctx : List Bytes)
  | recover
  | serverHeader (parts : List Bytes)
  | logRequests

/-- The middlewares around handlers which may return nil. The first three only pass on what `next` returns, or return a response of their own. `Recover`
(recover.go:11-21) does so, too, unless there is a panic. `ServerHeader` (serverheader.go:18) and `LogRequests` (logging.go:21) use the response. What is logged does not matter here. -/
def Bundled.nilable (F : Fold) (text : GoErr → Bytes) (left : Request → Request) : Bundled → Router.Middleware Maybe
  | .redirect src dst => Middleware.redirect F src dst
  | .httpsOnly ps => Middleware.httpsOnly F ps
  | .customContext ctx => Middleware.customContext ctx
  | .recover => fun next req => ExceptT.mk (Act.recovering
      (.ret (.ok (Fields.new.error text (some (.http Status.ErrInternalServerError)) [], left req))) (next req).run)
  | .serverHeader parts => fun next => Middleware.serverHeader F parts (deref next)
  | .logRequests => fun next => Middleware.logRequests (fun _ _ => pure ()) () [] (deref next)

/-- The same middlewares around handlers which always return a response. -/
def Bundled.plain (F : Fold) (text : GoErr → Bytes) (left : Request → Request) : Bundled → Router.Middleware Act
  | .redirect src dst => Middleware.redirect F src dst
  | .httpsOnly ps => Middleware.httpsOnly F ps
  | .customContext ctx => Middleware.customContext ctx
  | .recover => Middleware.recover text left
  | .serverHeader parts => Middleware.serverHeader F parts
  | .logRequests => Middleware.logRequests (fun _ _ => pure ()) () []

end Indigo.NilResponse
