/-
Response objects: http/response.go has them as pointers, and each request has one which is used again and again. `Model/Response.lean` has them as values.
-/
import Verif.Model.Response

namespace Indigo.OneResponse

/-- What handlers and middlewares do with responses. Results of `Respond` and `NewResponse` are numbered in the order of these calls. -/
inductive Stmt
  /-- http/request.go:145-147 `request.Respond()` -/
  | respond
  /-- http/response.go:35-43 `http.NewResponse()` -/
  | new
  /-- a method of a response, called on the result with the number `v` (or on what is returned by a method of it, which is the same pointer, http/response.go:48-51 and so on);
  `f` is its effect, `none` a panic -/
  | call (v : Nat) (f : Fields → Option Fields)

/-- The objects (the one of the request is the first one), and which of them the results of the calls are. -/
structure State where
  objects : List Fields
  results : List Nat

/-- http/request.go:145-147: the only object of the request is cleared (internal/response/fields.go:24-33) and returned; http/response.go:35-43: a new object. -/
def step (st : State) : Stmt → Option State
  | .respond => some ⟨st.objects.modify 0 Fields.clear, st.results ++ [0]⟩
  | .new => some ⟨st.objects ++ [Fields.new], st.results ++ [st.objects.length]⟩
  | .call v f =>
    match st.results[v]? with
    | none => none
    | some o =>
      match st.objects[o]? with
      | none => none
      | some r => (f r).map (fun r => { st with objects := st.objects.set o r })

/-- All statements, for a request whose response is `old` (as an earlier request has left it). -/
def run (old : Fields) (p : List Stmt) : Option State := p.foldlM step ⟨[old], []⟩

/-- The response which is sent if the result `v` is returned by the handler: internal/protocol/http1/suit.go:92-99 and serializer.go:80 look at it after the handler has returned. -/
def returned (st : State) (v : Nat) : Option Fields := st.results[v]?.bind (fun o => st.objects[o]?)

end Indigo.OneResponse
