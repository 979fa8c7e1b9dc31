/-
Specification of programs made with the built-in router: which handler is to be called for a request, with what, and
what is expected of handlers.
-/
import Verif.Spec.Router
import Verif.Spec.Radix
import Verif.Spec.Replies

namespace Indigo.Spec
open Indigo.Router (Handler Op)
open Indigo.Spec.Router
open Indigo.Serve (Setup)

section
variable {m : Type → Type}

/-- How paths are looked up: the route found for a request, with the values of its variables; and the parameters a request may be
left with if there is none. -/
structure Lookup where
  found : Request → Bytes → List (Bytes × Bytes) → Prop
  left : Request → Storage → Prop

/-- Without variables: the route is the path itself. -/
def Lookup.static (ops : List (Op m)) : Lookup where
  found r route values := route = r.Path ∧ values = [] ∧ methodsOf ops r.Path ≠ []
  left r params := params = r.Params

/-- With variables: the template of which the path is an instance, literal sections taking precedence. The root is always found, even if
nothing is registered for it. -/
def Lookup.templates (ts : List Radix.Tmpl) : Lookup where
  found r route values := ∃ t path, route = Radix.text t ∧ (t ∈ ts ∨ t = []) ∧ r.Path = SLASH :: path ∧
    Radix.Instance t (Radix.sections path) values ∧ Radix.Unshadowed ts t (Radix.sections path)
  left _ _ := True

/-- The request with values of variables among its parameters, and told the methods of its route. -/
def onRoute (r : Request) (values : List (Bytes × Bytes)) (methods : List Method) : Request :=
  allowing { r with Params := { r.Params with pairs := r.Params.pairs ++ values.map (fun e => ⟨e.1, e.2⟩) } } methods

/-- TRACE requests for a route which has no handler for them: the router answers these itself. -/
def Echoed (ops : List (Op m)) (L : Lookup) (r : Request) : Prop :=
  r.Method = .TRACE ∧ ∃ route values, L.found r route values ∧ .TRACE ∉ methodsOf ops route

open Classical in
/-- The texts of those requests among `history` which the router has answered itself. -/
noncomputable def echoedText (ops : List (Op m)) (L : Lookup) (history : List Request) : Bytes :=
  (history.filter (fun r => decide (Echoed ops L (arriving ops r)))).flatMap (fun r => echo (arriving ops r))

/-- The version of a request, as it is written. -/
def spoken (h : Head) : Bytes :=
  if h.version.take 6 = b!"HTTP/2" then b!"HTTP/2" else h.version.take 6 ++ b!"." ++ h.version.drop 7

/-- The text of a request, as far as it is repeated: the line with the path (decoded, and without trailing slashes), and all header lines but those with the length of the body; and instead of
the latter, a length of zero. -/
def echoOf (s : Sending) : Bytes :=
  s.head.method.toBytes ++ b!" " ++ UriNormalize.normalize s.path ++
    (match s.head.query with | none => [] | some [] => [] | some q => b!"?" ++ q) ++ b!" " ++ spoken s.head ++ b!"\r\n" ++
    (s.head.fields.filter (fun f => !f.isLength)).flatMap (fun f => f.name ++ b!": " ++ f.value ++ b!"\r\n") ++ b!"Content-Length: 0\r\n\r\n"

/-- TRACE requests, as sent, for a route which has no handler for them. -/
def Traceable (ops : List (Op m)) (L : Lookup) (s : Sending) : Prop :=
  ∃ r : Request, r.Method = s.head.method ∧ r.Path = UriNormalize.normalize s.path ∧ Echoed ops L r

/-- The handler which is to be called for the request `r` (as the mutators leave it), and the request it is to be called with. -/
inductive Chosen [Monad m] (F : Fold) (text : GoErr → Bytes) (ops : List (Op m)) (L : Lookup) (r : Request) : Handler m → Request → Prop
  /-- the route has a handler for the method -/
  | route {route values ms h} : L.found r route values → ms.Perm (methodsOf ops route) → ((route, r.Method), h) ∈ declared ops →
      Chosen F text ops L r h (onRoute r values ms)
  /-- HEAD is answered by the handler for GET if it has none of its own -/
  | head {route values ms h} : L.found r route values → ms.Perm (methodsOf ops route) → r.Method = .HEAD → .HEAD ∉ methodsOf ops route →
      ((route, .GET), h) ∈ declared ops → Chosen F text ops L r h (onRoute r values ms)
  /-- the route has no handler for the method: the one for the error 405 -/
  | notAllowed {route values ms h} : L.found r route values → ms.Perm (methodsOf ops route) → r.Method ∉ methodsOf ops route →
      (r.Method = .HEAD → .GET ∉ methodsOf ops route) → handlerFor F text ops Status.MethodNotAllowed = some h →
      Chosen F text ops L r h (failing (onRoute r values ms) (.http Status.ErrMethodNotAllowed))
  /-- no route: the catcher with the longest prefix -/
  | caught {pre params h} : (∀ route values, ¬ L.found r route values) → L.left r params → (pre, h) ∈ catchers ops → pre <+: r.Path →
      (∀ c ∈ catchers ops, c.1 <+: r.Path → c.1.length ≤ pre.length) → Chosen F text ops L r h { r with Params := params }
  /-- no route and no catcher: the handler for the error 404 -/
  | notFound {params h} : (∀ route values, ¬ L.found r route values) → L.left r params → (∀ c ∈ catchers ops, ¬ c.1 <+: r.Path) →
      handlerFor F text ops Status.NotFound = some h → Chosen F text ops L r h (failing { r with Params := params } (.http Status.ErrNotFound))

end

/-- The request `r'` is `r` with nothing changed which the server still needs: the method, the protocol, the headers Connection and Upgrade, the remote address
and the query, which is used through its methods only. -/
structure Untouched (r r' : Request) : Prop where
  method : r'.Method = r.Method
  proto : r'.Proto = r.Proto
  connection : r'.Connection = r.Connection
  upgrade : r'.Upgrade = r.Upgrade
  remote : r'.Remote = r.Remote
  query : (r.Query.parsed = false → r.Query.params.pairs = []) → r'.Query.parsed = false → r'.Query.params.pairs = []

/-- A handler which leaves these alone in the requests it is called with, and does not hijack connections. -/
structure Polite {σ ρ : Type} (E : Setup σ ρ) (h : Handler Act) : Prop where
  request : ∀ r w f r', ((h r).run E.P E.maxAlloc w).1 = some (f, r') → Untouched r r'
  hijacked : ∀ r w, ((h r).run E.P E.maxAlloc w).2.hijacked = w.hijacked

/-- All handlers there are: of routes and catchers, inside of their middlewares, and those for errors. -/
def AllHandlers (F : Fold) (text : GoErr → Bytes) (ops : List (Op Act)) (good : Handler Act → Prop) : Prop :=
  (∀ d ∈ declared ops, good d.2) ∧ (∀ c ∈ catchers ops, good c.2) ∧ ∀ e ∈ errorHandlers (defaults F text) ops, good e.2

end Indigo.Spec
