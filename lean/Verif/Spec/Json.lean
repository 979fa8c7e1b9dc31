/-
Specification: which values of Content-Type say that a body is JSON.
-/
import Verif.Base.Bytes
import Verif.Spec.Response

namespace Indigo.Spec

/-- The media type of a Content-Type value: what comes before the parameters, without blanks around it; letters of both cases
mean the same (RFC 9110, 8.3.1). -/
def mediaType (v : Bytes) : Bytes := lower (stripOWS (v.takeWhile (· ≠ 59)))

/-- The value says JSON. -/
def saysJSON (v : Bytes) : Bool := mediaType v == b!"application/json"

end Indigo.Spec
