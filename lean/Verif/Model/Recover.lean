/-
Model of router/inbuilt/middleware/recover.go and logging.go and of router/inbuilt/mutator/requestlogger.go.
-/
import Verif.Model.Serve
import Verif.Model.Middleware
import Verif.Model.Escape

namespace Indigo

/-- `x` inside of a function with a deferred call of `recover()`, whose effect after a panic is `h`. -/
def Act.recovering {α : Type} (h : Act α) : Act α → Act α
  | .ret a => .ret a
  | .body k next => .body k (fun r => recovering h (next r))
  | .hijack next => .hijack (fun r => recovering h (next r))
  | .read next => .read (fun d e => recovering h (next d e))
  | .unread b next => .unread b (recovering h next)
  | .write b next => .write b (fun r => recovering h (next r))
  | .panic => h

namespace Middleware

/-- router/inbuilt/middleware/recover.go:11-21 `Recover`. `left` tells how the panicking handler leaves the request
object; writing the panic to the log (line 14) is not modelled. -/
def recover (text : GoErr → Bytes) (left : Request → Request) : Router.Middleware Act := fun next request =>
  Act.recovering
    (.ret (Fields.new.error text (some (.http Status.ErrInternalServerError)) [], left request)) (next request)

section
variable {m : Type → Type} {L : Type}

/-- `len(loggers) == 0` means the standard logger: logging.go:15-17, requestlogger.go:14-16. -/
def loggersOr (standard : L) (loggers : List L) : List L := if loggers.length = 0 then loggers ++ [standard] else loggers

/-- router/inbuilt/middleware/logging.go:14-31 `LogRequests`. `printf` passes a formatted message to a logger;
`"%s %s %d"` is expanded here. -/
def logRequests [Monad m] (printf : L → Bytes → m Unit) (standard : L) (loggers : List L) : Router.Middleware m :=
  let loggers := loggersOr standard loggers
  fun next request => do
    let (response, request) ← next request
    if response.Code = Status.CloseConnection then pure (response, request)
    else
      loggers.forM (fun logger => printf logger
        (request.Method.toBytes ++ b!" " ++ Escape.Escape request.Path ++ b!" " ++ decBytes response.Code))
      pure (response, request)

/-- router/inbuilt/mutator/requestlogger.go:13-23 `RequestsLog`. As mutators of the model change nothing but the
request, this one is modelled apart from them. -/
def requestsLog [Monad m] (printf : L → Bytes → m Unit) (standard : L) (loggers : List L) (request : Request) :
    m Request := do
  (loggersOr standard loggers).forM (fun logger => printf logger
    (request.Method.toBytes ++ b!" " ++ Escape.Escape request.Path))
  pure request

end
end Middleware
end Indigo
