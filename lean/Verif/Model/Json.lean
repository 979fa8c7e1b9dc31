/-
Model of `Request.JSON` (http/request.go).
-/
import Verif.Model.Serve

namespace Indigo

/-- http/request.go:101-117 `JSON`. `decode` is the external decoder (`jsoniter`'s `ReadVal`): what it makes of the data, and
its error. The result is what has been decoded, if the decoder has been called, and the error returned. http/mime/common.go:7 `JSON`. -/
def Request.json {α : Type} (decode : Bytes → α × Option GoErr) (r : Request) : Act (Option α × Option GoErr) :=
  if r.ContentType.length > 0 ∧ r.ContentType ≠ b!"application/json" then
    .ret (none, some (.http Status.ErrUnsupportedMediaType))
  else
    (Act.call .bytes).bind (fun a =>
      match a with
      | .whole _ (some e) => .ret (none, some e)
      | .whole d none => .ret (some (decode (d.getD [])).1, (decode (d.getD [])).2)
      | _ => .panic)

end Indigo
