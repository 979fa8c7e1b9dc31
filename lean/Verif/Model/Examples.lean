/-
The example programs which come with the project (examples/): their handlers, and the calls which make their routers. Addresses, and what is
logged when the server is bound, are left out.
-/
import Verif.Model.Serve
import Verif.Model.Router
import Verif.Model.Resource
import Verif.Model.Recover
import Verif.Model.Files

namespace Indigo.Examples
open Indigo.Router

/-- examples/helloworld/helloworld.go:14-19 `MyHandler`. -/
def helloHandler (F : Fold) : Handler Act := fun request =>
  match (Fields.new.code Status.OK).header F b!"Hello" [b!"world"] with
  | none => .panic
  | some f => pure (f.bytes b!"<h1>Hello, world!</h1>", request)

/-- examples/helloworld/helloworld.go:21-23 `main`: the router. -/
def helloworld (F : Fold) : List (Op Act) :=
  [.route 0 .GET b!"/" (helloHandler F) []]

/-- examples/helloworld_norouter/helloworld.go:14-19 `MyHandler`. -/
def doingHandler (F : Fold) : Handler Act := fun request =>
  match (Fields.new.code Status.OK).header F b!"Hello" [b!"world"] with
  | none => .panic
  | some f => pure (f.bytes b!"<h1>How are you doing?</h1>", request)

/-- examples/helloworld_norouter/helloworld.go:22-24: the handler for errors. `text` are the messages of errors. -/
def doingErrors (text : GoErr → Bytes) : Handler Act := fun request =>
  pure (Fields.new.error text request.Env.Error [], request)

/-- examples/dynroute/dynroute.go:14-18 `MyDynamicHandler`. -/
def dynamicHandler (F : Fold) : Handler Act := fun request =>
  let worldName := request.Params.value F b!"world-name"
  pure (Fields.new.bytes (b!"your world-name is " ++ worldName), request)

/-- examples/dynroute/dynroute.go:20-23 `main`: the router. -/
def dynroute (F : Fold) : List (Op Act) :=
  [.route 0 .GET b!"/hello/{world-name}" (dynamicHandler F) []]

/-- Handlers which write to a log (`log.Println`), and do nothing else. -/
abbrev Logged := StateM (List Bytes)

/-- `log.Println`. -/
def println (line : Bytes) : Logged Unit := modify (· ++ [line])

/-- examples/middlewares/middlewares.go:14-20 `HelloWorldMiddleware`. -/
def helloWorldMiddleware : Middleware Logged := fun next request => do
  println b!"running middleware before handler"
  let response ← next request
  println b!"running middleware after handler"
  pure response

/-- examples/middlewares/middlewares.go:22-28 `SecondMiddleware`. -/
def secondMiddleware : Middleware Logged := fun next request => do
  println b!"running second middleware before first one"
  let response ← next request
  println b!"running second middleware after first one"
  pure response

/-- examples/middlewares/middlewares.go:30-34 `MyBeautifulHandler`. -/
def beautifulHandler : Handler Logged := fun request => do
  println b!"running handler"
  pure (Fields.new, request)

/-- examples/middlewares/middlewares.go:36-45 `main`: the router. -/
def middlewares : List (Op Logged) :=
  [.group 0 b!"/api", .use 1 [helloWorldMiddleware], .group 1 b!"/v1", .use 2 [secondMiddleware], .route 2 .GET b!"/hello" beautifulHandler []]

/-- examples/connhijack/connhijack.go:24-33: reading from the connection until an error; at most `fuel` times. The result is what is logged
("somebody says", line 32, as it is read): `said`, and what comes. -/
def listen : Nat → List Bytes → Act (List Bytes)
  | 0, said => pure said
  | fuel + 1, said => .read fun data err => if err.isSome then pure said else listen fuel (said ++ [data])

/-- examples/connhijack/connhijack.go:15-34 `MyHandler`. (The response is nil, which does not matter, see C95.) -/
def hijackHandler (fuel : Nat) : Handler Act := fun request =>
  .hijack fun err => if err.isSome then pure (Fields.new, request) else (listen fuel []).bind fun _ => pure (Fields.new, request)

/-- examples/connhijack/connhijack.go:36-38 `main`: the router. -/
def connhijack (fuel : Nat) : List (Op Act) :=
  [.route 0 .GET b!"/" (hijackHandler fuel) []]

/-- examples/combined/combined.go:22-35 `IndexSay`; what it logs is not modelled. -/
def indexSay (F : Fold) (text : GoErr → Bytes) : Handler Act := fun request =>
  if request.Headers.value F b!"talking" ≠ b!"allowed" then pure (Fields.new.code Status.UnavailableForLegalReasons, request)
  else .body .string fun
    | .whole _ (some err) => pure (Fields.new.error text (some err) [], request)
    | .panic => .panic
    | _ => pure (Fields.new, request)

/-- examples/combined/combined.go:37-41 `World`. -/
def world : Handler Act := fun request => pure (Fields.new.bytes b!"<h1>Hello, world!</h1>", request)

/-- examples/combined/combined.go:43-52 `Easter`. -/
def easter (F : Fold) : Handler Act := fun request =>
  if request.Headers.has F b!"easter" then
    match (Fields.new.code Status.Teapot).header F b!"Easter" [b!"Egg"] with
    | none => .panic
    | some f => pure (f.bytes b!"You have discovered an easter egg! Congratulations!", request)
  else pure (Fields.new.bytes b!"Pretty ordinary page, isn't it?", request)

/-- examples/combined/combined.go:54-62 `Stressful`: it sets a header and a body, and panics. The response is lost, and the one made by `Recover` begins with `Clear`. -/
def stressful : Handler Act := fun _ => .panic

/-- examples/combined/combined.go:86-90: the handler for `/shutdown`. Stopping the server (see C47) is not modelled here. -/
def shutdown : Handler Act := fun request => pure (Fields.new.code Status.Teapot, request)

/-- examples/combined/combined.go:75-94 `main`: the router; `none` is a panic. `os` is the file system. The logging of requests goes to the standard logger, and has no
effect here (see C76). -/
def combined (F : Fold) (text : GoErr → Bytes) (os : Bytes → Files.Opened) : Option (List (Op Act)) := do
  let static ← Static.op text os 0 b!"/static" b!"examples/combined/static" []
  pure ([.use 0 [Middleware.logRequests (fun _ _ => pure ()) () []],
    .alias 0 b!"/" b!"/static/index.html",
    .alias 0 b!"/favicon.ico" b!"/static/favicon.ico",
    static,
    verb .Get 0 b!"/stress" stressful [Middleware.recover text id]] ++
    Resource.make 0 b!"/" 1 [.verb .Post (indexSay F text) []] ++
    [verb .Post 0 b!"/shutdown" shutdown [],
    .group 0 b!"/hello",
    verb .Get 2 b!"/world" world [],
    verb .Get 2 b!"/easter" (easter F) []])

end Indigo.Examples
