import Verif.Props.Router
import Verif.Model.Resource

/-!
The tests of router/inbuilt/inbuilt_test.go and middlewares_test.go, on the model. These are tests of the model, not
proofs of anything; see DESIGN.md.
-/

namespace Indigo.Conformance.Routing
open Indigo.Router Indigo.Spec.Router Indigo.Props

/-- What the tests look at: the code and the body of each answer. -/
def answers (ops : List (Op Id)) (reqs : List (Method × Bytes)) : Option (List (Status.Code × Bytes)) :=
  (make sampleFold (fun e => match e with | .http e => e.Message | _ => []) sampleEnv ops).bind (go reqs)
where
  go : List (Method × Bytes) → Runtime Id → Option (List (Status.Code × Bytes))
    | [], _ => some []
    | (meth, path) :: reqs, rt =>
      match rt.onRequest sampleFold { Method := meth, Path := path } with
      | none => none
      | some (r, rt) => (go reqs rt).map (fun l => ((Prod.fst (Id.run r)).Code, (Prod.fst (Id.run r)).Body) :: l)

/-- The same for `OnError` with a GET request. -/
def errorAnswer (ops : List (Op Id)) (err : GoErr) : Option (Status.Code × Bytes) :=
  (make sampleFold (fun e => match e with | .http e => e.Message | _ => []) sampleEnv ops).map (fun rt =>
    let r := Id.run (rt.onError sampleFold { Method := .GET, Path := b!"/" } err).1
    (r.1.Code, r.1.Body))

def respond : Handler Id := fun req => (Fields.new, req)
def say (s : Bytes) : Handler Id := fun req => (Fields.new.bytes s, req)

/-- TestRoute -/
example : answers [.route 0 .GET b!"/" respond [], .route 0 .POST b!"/" respond [], .route 0 .POST b!"/hello" respond []]
    [(.GET, b!"/"), (.POST, b!"/"), (.POST, b!"/hello"), (.HEAD, b!"/")] =
    some [(200, []), (200, []), (200, []), (200, [])] := by decide +kernel

/-- TestMethodShorthands -/
example : answers ([Verb.Get, .Head, .Post, .Put, .Delete, .Connect, .Options, .Trace, .Patch].map (fun v =>
      verb v 0 b!"/" respond []))
    [(.GET, b!"/"), (.HEAD, b!"/"), (.POST, b!"/"), (.PUT, b!"/"), (.DELETE, b!"/"), (.CONNECT, b!"/"),
      (.OPTIONS, b!"/"), (.TRACE, b!"/"), (.PATCH, b!"/")] = some (List.replicate 9 (200, [])) := by decide +kernel

/-- TestGroups -/
example : answers [.route 0 .GET b!"/" respond [], .group 0 b!"/api", .group 1 b!"/v1",
      .route 2 .GET b!"/hello" respond [], .group 1 b!"/v2", .route 3 .GET b!"/world" respond []]
    [(.GET, b!"/"), (.GET, b!"/api/v1/hello"), (.GET, b!"/api/v2/world")] =
    some [(200, []), (200, []), (200, [])] := by decide +kernel

/-- TestResource -/
example : answers ([.group 0 b!"/", verb .Get 1 [] respond [], verb .Post 1 [] respond [], .group 0 b!"/api",
      .group 2 b!"/stat", verb .Get 3 [] respond [], verb .Post 3 [] respond []])
    [(.GET, b!"/"), (.POST, b!"/"), (.GET, b!"/api/stat"), (.POST, b!"/api/stat")] =
    some [(200, []), (200, []), (200, []), (200, [])] := by decide +kernel

/-- TestResource_Methods -/
example : answers (.group 0 b!"/" :: [Verb.Get, .Head, .Post, .Put, .Delete, .Connect, .Options, .Trace, .Patch].map
      (fun v => verb v 1 [] respond []))
    [(.GET, b!"/"), (.HEAD, b!"/"), (.POST, b!"/"), (.PUT, b!"/"), (.DELETE, b!"/"), (.CONNECT, b!"/"),
      (.OPTIONS, b!"/"), (.TRACE, b!"/"), (.PATCH, b!"/")] = some (List.replicate 9 (200, [])) := by decide +kernel

/-- TestRouter_MethodNotAllowed -/
example : (answers [.route 0 .GET b!"/" respond []] [(.POST, b!"/")]).map (fun l => l.map Prod.fst) = some [405] := by
  decide +kernel

/-- The handler of TestRouter_RouteError. -/
def teapot : Handler Id := fun req =>
  ((Fields.new.code 418).bytes (match req.Env.Error with | some (.http e) => e.Message | _ => []), req)

/-- TestRouter_RouteError: a bad request, another bad request, errors nobody handles -/
example : errorAnswer [.routeError 0 teapot [400]] (.http Status.ErrBadRequest) = some (418, b!"bad request") ∧
    errorAnswer [.routeError 0 teapot [400]] (.http Status.ErrURIDecoding) = some (418, b!"invalid URI encoding") ∧
    (errorAnswer [.routeError 0 teapot [400]] (.http Status.ErrNotImplemented)).map Prod.fst = some 501 ∧
    errorAnswer [.routeError 0 teapot [400]] (.other 1) = some (500, []) := by decide +kernel

/-- TestRouter_RouteError: the universal handler -/
example : errorAnswer [.routeError 0 (fun req => ((Fields.new.code 418).bytes b!"from universal handler with love", req))
      [AllErrors]] (.http Status.ErrNotImplemented) = some (418, b!"from universal handler with love") := by
  decide +kernel

/-- A handler which tells the path and the alias. -/
def tell : Handler Id := fun req => (Fields.new.bytes (req.Path ++ b!" " ++ req.Env.AliasFrom), req)

/-- TestAliases: a single alias; over a route; several requests; in a group -/
example : answers [.route 0 .GET b!"/hello" tell [], .alias 0 b!"/" b!"/hello"] [(.GET, b!"/")] =
      some [(200, b!"/hello /")] ∧
    answers [.route 0 .GET b!"/" (say b!"fail") [], .route 0 .GET b!"/hello" tell [], .alias 0 b!"/" b!"/hello"]
      [(.GET, b!"/"), (.GET, b!"/hello"), (.GET, b!"/"), (.GET, b!"/hello")] =
      some [(200, b!"/hello /"), (200, b!"/hello "), (200, b!"/hello /"), (200, b!"/hello ")] ∧
    answers [.route 0 .GET b!"/heaven" respond [], .group 0 b!"/hello", .alias 1 b!"/world" b!"/heaven"]
      [(.GET, b!"/hello/world")] = some [(200, [])] := by decide +kernel

/-- TestCatchers -/
example : answers [.route 0 .GET b!"/" respond [], .route 0 .GET b!"/hello" respond [],
      .catch 0 b!"/" (say b!"magic") [], .catch 0 b!"/hello" (say b!"double magic") []]
    [(.GET, b!"/"), (.GET, b!"/hello"), (.GET, b!"/anything"), (.GET, b!"/helloworld")] =
    some [(200, []), (200, []), (200, b!"magic"), (200, b!"double magic")] := by decide +kernel

/-- TestMutators: here the mutator counts in the parameters of the request; each request is changed once. -/
example : (make sampleFold (fun _ => []) sampleEnv [.route 0 .GET b!"/" respond [],
      .mutator 0 (fun req => { req with Params := req.Params.add b!"called" [] })]).map (fun rt =>
      [(Method.GET, b!"/"), (.POST, b!"/"), (.GET, b!"/foo")].map (fun (q : Method × Bytes) =>
        ((rt.onRequest sampleFold { Method := q.1, Path := q.2 }).map (fun r =>
          ((Prod.fst (Id.run r.1)).Code, (Prod.snd (Id.run r.1)).Params.len))))) =
    some [some (200, 1), some (405, 1), some (404, 1)] := by decide +kernel

/-- A middleware which adds its number to the front of the body. -/
def mark (c : Byte) : Middleware Id := fun next req =>
  let (f, req) := next req
  ({ f with Body := c :: f.Body }, req)

/-- TestMiddlewares -/
example : answers [.use 0 [mark 1], .route 0 .GET b!"/" respond [mark 2], .catch 0 b!"/he" respond [mark 2],
      .group 0 b!"/api", .use 1 [mark 3],
      .group 1 b!"/v1", .route 2 .GET b!"/hello" respond [mark 6], .use 2 [mark 4],
      .group 1 b!"/v2", .catch 3 b!"/any" respond [], .use 3 [mark 5], .route 3 .GET b!"/world" respond [mark 7]]
    [(.GET, b!"/"), (.GET, b!"/hello"), (.GET, b!"/api/v1/hello"), (.GET, b!"/api/v2/world"),
      (.GET, b!"/api/v2/anything")] =
    some [(200, [1, 2]), (200, [1, 2]), (200, [1, 3, 4, 6]), (200, [1, 3, 5, 7]), (200, [1, 3, 5])] := by
  decide +kernel

end Indigo.Conformance.Routing
