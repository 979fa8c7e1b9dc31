/-
Specification of a web site: pages, and what a client is to get for a request.
-/
import Verif.Spec.Router
import Verif.Spec.Replies

namespace Indigo.Spec
open Indigo.Router (Handler Op)
open Indigo.Spec.Router (commas)

/-- A page: what is answered to requests with this method and path, given the request and its whole body. -/
structure Page where
  method : Method
  path : Bytes
  answer : Request → Bytes → Fields

/-- The handler of a page: it retrieves the body and answers. -/
def Page.handler (p : Page) : Handler Act := fun r => do
  match ← Act.call .bytes with
  | .whole d none => pure (p.answer r (d.getD []), r)
  | _ => pure (Fields.new.code 500, r)

/-- The program of the user: every page is registered with the built-in router, and nothing else is done. -/
def site (pages : List Page) : List (Op Act) := pages.map (fun p => .route 0 p.method p.path p.handler [])

/-- The page with this method and path; slashes at the end do not matter. -/
def pageAt (pages : List Page) (meth : Method) (path : Bytes) : Option Page :=
  pages.find? (fun p => p.method = meth ∧ UriNormalize.normalize p.path = UriNormalize.normalize path)

/-- The methods there are pages with, for this path. -/
def methodsAt (pages : List Page) (path : Bytes) : List Method :=
  [.Unknown, .GET, .HEAD, .POST, .PUT, .DELETE, .CONNECT, .OPTIONS, .TRACE, .PATCH].filter
    (fun m => (pageAt pages m path).isSome)

/-- The page which is to answer: to HEAD, the one for GET if there is none for HEAD. -/
def pageFor (pages : List Page) (meth : Method) (path : Bytes) : Option Page :=
  (pageAt pages meth path).or (if meth = .HEAD then pageAt pages .GET path else none)

/-- The request as the page gets it: no slashes at the end of the path, and the methods of this path. -/
def asRouted (pages : List Page) (r : Request) : Request :=
  { r with
    Path := UriNormalize.normalize r.Path
    Env := { r.Env with AllowedMethods := commas ((methodsAt pages r.Path).map Method.toBytes) } }

/-- Code, headers and body (or attachment) of the answer to a request `r` with this body: the one of the page; without a page, 405 with the
methods which are allowed, or 404 if there are none. -/
def siteAnswer (pages : List Page) (r : Request) (body : Bytes) : Nat × List Pair × Bytes :=
  match pageFor pages r.Method r.Path with
  | some p => let f := p.answer (asRouted pages r) body; (f.Code, f.Headers, sentBody f)
  | none =>
    if methodsAt pages r.Path = [] then (404, [], [])
    else (405, [⟨b!"Allow", commas ((methodsAt pages r.Path).map Method.toBytes)⟩], [])

end Indigo.Spec
