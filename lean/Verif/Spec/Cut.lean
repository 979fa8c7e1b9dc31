/-
Specification of requests whose body does not come to its end.
-/
import Verif.Spec.Serve

namespace Indigo.Spec
open Serve (Visit Ended Setup)
variable {σ ρ : Type}

/-- A well-formed head within the limits, for `path`. -/
structure GoodHead (L : Limits) (h : Head) (path : Bytes) : Prop where
  ok : h.OK
  clean : h.CleanNames
  noBareEmpty : h.NoBareEmpty
  fits : h.Fits L
  path : Unescapes h.target path

/-- The body announced by the head `h` cannot be read to its end: `given` are all bytes which come after the head. -/
inductive CutBody (F : Fold) (maxTokens maxBody : Nat) (h : Head) (given : Bytes) : Prop
  /-- fewer bytes come than Content-Length says -/
  | short : h.isChunked F maxTokens = false → given.length < h.announced →
      CutBody F maxTokens maxBody h given
  /-- Content-Length says more than is allowed; whatever comes -/
  | large : h.isChunked F maxTokens = false → maxBody < h.announced →
      CutBody F maxTokens maxBody h given
  /-- the chunked body, which is not too large, is not complete -/
  | chunked (chunks : List Bytes) (missing : Bytes) : h.isChunked F maxTokens = true → ChunkedCoding chunks (given ++ missing) →
      missing ≠ [] → chunks.flatten.length ≤ maxBody → CutBody F maxTokens maxBody h given

/-- Nothing but errors happens any more. -/
def Over (post : List (Bytes × Option GoErr)) : Prop := ∀ ev ∈ post, ev.2 ≠ none

/-- What the router is to be called with after the head `h`: a request object saying what the head says and nothing else, and
the body object just initialised for it; `given` is what comes on the connection after the head, and then `post`. -/
structure Announced (E : Setup σ ρ) (maxTokens : Nat) (remote : Bytes) (post : List (Bytes × Option GoErr)) (env : Environment)
    (h : Head) (path given : Bytes) (seen : Request) (world : BC σ) : Prop where
  carries : Carries E.F maxTokens h seen
  path : seen.Path = path
  params : seen.Params.pairs = []
  ctx : seen.Ctx = []
  env : seen.Env = env
  remote : seen.Remote = remote
  hijacked : seen.wasHijacked = false
  fresh : ∃ b : Body σ, world.1 = b.initFor seen ∧ b.parser = E.P.init
  rest : ∃ c, world.2 = followedBy c post ∧ c.stream = given ∧ Quiet c

/-- End of a conversation by a request which is the last one of the connection, whatever comes after its head: the router is
called with it, once; its answer is written, unless the handler panics or hijacks the connection; the router is told that the
connection is being closed; and that is all. -/
inductive LastRequest (E : Setup σ ρ) (maxTokens : Nat) (remote : Bytes) (post : List (Bytes × Option GoErr)) (h : Head) (path given : Bytes) :
    Environment → ρ → Serializer → Fields → List (Option GoErr) → List (Visit σ) → List Bytes → Ended → Prop
  | panicked {env st d pre ws seen world left frames} : Announced E maxTokens remote post env h path given seen world →
      Answers E st seen world (none, left) → left.client.written = world.2.written ++ frames → (left.hijacked = false → frames = []) →
      LastRequest E maxTokens remote post h path given env st d pre ws [.request seen world none left] frames .panicked
  | hijacked {env st d pre ws seen world answer left frames} : Announced E maxTokens remote post env h path given seen world →
      Answers E st seen world (some answer, left) → left.client.written = world.2.written ++ frames → left.hijacked = true →
      LastRequest E maxTokens remote post h path given env st d pre ws [.request seen world (some answer) left] frames .hijacked
  | broken {env st d pre ws seen world f req left w} : Announced E maxTokens remote post env h path given seen world →
      Answers E st seen world (some (f, req), left) → left.hijacked = false →
      w = Serializer.write E.F (opening E.F d pre seen).2.1 (opening E.F d pre seen).1 req f { wscript := ws } → w.out = .panic →
      LastRequest E maxTokens remote post h path given env st d pre ws [.request seen world (some (f, req)) left] w.client.written .panicked
  | answered {env st d pre ws seen world f req left w e seen' ans left' more why} : Announced E maxTokens remote post env h path given seen world →
      Answers E st seen world (some (f, req), left) → left.hijacked = false →
      w = Serializer.write E.F (opening E.F d pre seen).2.1 (opening E.F d pre seen).1 req f { wscript := ws } → w.out = .done e →
      Told E (E.router.onRequest st seen).2 seen' closeError (ans, left') → (left'.hijacked = false → more = []) →
      why ∈ (if e.isSome then [Ended.writeFailed] else [.clearFailed, .readFailed]) →
      LastRequest E maxTokens remote post h path given env st d pre ws
        [.request seen world (some (f, req)) left, .error seen' closeError ans left'] (w.client.written ++ more)
        (if ans.isSome then why else .panicked)

end Indigo.Spec
