/-
Specification of examples/combined: what it answers.
-/
import Verif.Spec.Files
import Verif.Model.Address

namespace Indigo.Spec
open Indigo.Spec.Files

/-- The path a request is answered for: two paths stand for files; other paths are taken without slashes at their end. -/
def aimed (path : Bytes) : Bytes :=
  if path = b!"/" then b!"/static/index.html" else if path = b!"/favicon.ico" then b!"/static/favicon.ico" else UriNormalize.normalize path

/-- The response to a request with this method for the path (after `aimed`): code, type, body and headers. `egg` tells whether the request has a header named easter. -/
inductive CombinedReply (disk : Bytes → Entry) (meth : Method) (path : Bytes) (egg : Bool) : Nat → Bytes → Bytes → List (Bytes × Bytes) → Prop
  /-- its handler panics -/
  | stress : path = b!"/stress" → meth = .GET ∨ meth = .HEAD → CombinedReply disk meth path egg 500 b!"text/html" [] []
  | shutdown : path = b!"/shutdown" → meth = .POST → CombinedReply disk meth path egg 418 b!"text/html" [] []
  | world : path = b!"/hello/world" → meth = .GET ∨ meth = .HEAD → CombinedReply disk meth path egg 200 b!"text/html" b!"<h1>Hello, world!</h1>" []
  | egg : path = b!"/hello/easter" → meth = .GET ∨ meth = .HEAD → egg = true →
      CombinedReply disk meth path egg 418 b!"text/html" b!"You have discovered an easter egg! Congratulations!" [(b!"Easter", b!"Egg")]
  | ordinary : path = b!"/hello/easter" → meth = .GET ∨ meth = .HEAD → egg = false →
      CombinedReply disk meth path egg 200 b!"text/html" b!"Pretty ordinary page, isn't it?" []
  | onlyGet : path ∈ [b!"/stress", b!"/hello/world", b!"/hello/easter"] → meth ∉ [.GET, .HEAD, .TRACE] →
      CombinedReply disk meth path egg 405 b!"text/html" [] [(b!"Allow", b!"GET")]
  | onlyPost : path = b!"/shutdown" → meth ∉ [.POST, .TRACE] → CombinedReply disk meth path egg 405 b!"text/html" [] [(b!"Allow", b!"POST")]
  /-- answered by the router itself; for the text see C42 -/
  | trace {body} : path ∈ [b!"/stress", b!"/shutdown", b!"/hello/world", b!"/hello/easter"] → meth = .TRACE → CombinedReply disk meth path egg 200 b!"message/http" body []
  /-- files, for all methods; and what is not found -/
  | file {code type body} : path ∉ [b!"/stress", b!"/shutdown", b!"/hello/world", b!"/hello/easter"] →
      FileReply disk b!"/static" b!"examples/combined/static" path code type body → CombinedReply disk meth path egg code type body []

end Indigo.Spec
