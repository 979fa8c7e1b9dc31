/-
Specification of requests which say the same, but are written in different ways.
-/
import Verif.Spec.Same

namespace Indigo.Spec

/-- Two requests say the same: the method, the path after decoding, the query (no query and an empty one are the same), the version, the fields in their order but for Content-Length, the number Content-Length gives (wherever and however it is written), and the body after decoding.
They may differ in their line ends (CRLF or LF), in the number of spaces after colons, in which characters of the path are escaped, in how lengths are written (`5`, `05`), and in the chunks the body is sent in. -/
structure SameSaid (s s' : Sending) : Prop where
  method : s.head.method = s'.head.method
  path : s.path = s'.path
  query : s.head.query.getD [] = s'.head.query.getD []
  version : ∀ p, IsVersion s.head.version p ↔ IsVersion s'.head.version p
  fields : (s.head.fields.filter (fun f => !f.isLength)).map (fun f => (f.name, f.value)) = (s'.head.fields.filter (fun f => !f.isLength)).map (fun f => (f.name, f.value))
  length : decimal s.head.lengthDigits = decimal s'.head.lengthDigits
  body : s.body = s'.body

end Indigo.Spec
