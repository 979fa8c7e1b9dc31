/-
C52 for the functions `http.Respond`, `http.Code`, `http.String`, `http.Bytes`, `http.File`, `http.JSON`, `http.Error`.
-/
import Verif.Model.Shorthands

namespace Indigo.Props

/-- A response with nothing but a code, a content type and a body. -/
def plainly (code : Nat) (type body : Bytes) : Fields :=
  { Attachment := ⟨none, 0⟩, Headers := [], Body := body, Cookies := [], Status := [], ContentType := type, TransferEncoding := [], Code := code }

/-- **C52**, for the shorthands. Whatever has been set on the response of this request before, and by handlers of earlier requests, they give a response with what they are for and nothing else: `200`, `text/html` and no body, unless they say otherwise.
`Error` with an HTTP error gives its code without a body, with another one the first of the given codes, or 500, and its text; without an error, the blank response.
`File` gives 404 for what is not there, and for directories, and otherwise the contents, with the type by the extension; `JSON` gives the text of the model, or, if the encoder fails, 500 and the text of the error, still declared as JSON. -/
theorem C52_shorthands (text : GoErr → Bytes) (kept : Fields) :
    Shorthands.respond kept = plainly 200 b!"text/html" [] ∧
    (∀ c, Shorthands.code kept c = plainly c b!"text/html" []) ∧
    (∀ s, Shorthands.string kept s = plainly 200 b!"text/html" s) ∧
    (∀ b, Shorthands.bytes kept b = plainly 200 b!"text/html" b) ∧
    (∀ codes, Shorthands.error text kept none codes = plainly 200 b!"text/html" []) ∧
    (∀ e codes, Shorthands.error text kept (some (.http e)) codes = plainly e.Code b!"text/html" []) ∧
    (∀ e codes, (∀ h, e ≠ .http h) → Shorthands.error text kept (some e) codes = plainly (codes.head?.getD 500) b!"text/html" (text e)) ∧
    Shorthands.file text kept .noFile = plainly 404 b!"text/html" [] ∧ Shorthands.file text kept .directory = plainly 404 b!"text/html" [] ∧
    Shorthands.file text kept .noStat = plainly 500 b!"text/html" [] ∧
    (∀ content size mime, mime ≠ [] → Shorthands.file text kept (.file content size mime) = { plainly 200 mime [] with Attachment := ⟨some content, size⟩ }) ∧
    (∀ content size, Shorthands.file text kept (.file content size []) = { plainly 200 b!"application/octet-stream" [] with Attachment := ⟨some content, size⟩ }) ∧
    (∀ out, Shorthands.json text kept out none = plainly 200 b!"application/json" out) ∧
    (∀ out e, (∀ h, e ≠ .http h) → Shorthands.json text kept out (some e) = plainly 500 b!"application/json" (text e)) := by
  refine ⟨rfl, fun _ => rfl, fun _ => rfl, fun _ => rfl, fun _ => rfl, fun _ _ => rfl, ?_, rfl, rfl, rfl, ?_, fun _ _ => rfl, ?_, ?_⟩
  · intro e codes h
    cases e <;> first | rfl | exact absurd rfl (h _)
  · intro content size mime h
    simp only [Shorthands.file, Fields.file, Fields.tryFile]
    rw [if_neg (by intro e; exact h (List.length_eq_zero_iff.1 e))]
    rfl
  · intro out
    simp only [Shorthands.json, Fields.json, Fields.write, List.nil_append]
    rfl
  · intro out e h
    cases e <;> first | rfl | exact absurd rfl (h _)

/-- After a handler which has set a lot. -/
example : Shorthands.string ({ Attachment := ⟨some [], 5⟩, Headers := [⟨b!"X", b!"1"⟩], Body := b!"old", Cookies := [{ Name := b!"a", Value := b!"b" }], Status := b!"Fine", ContentType := b!"text/css", TransferEncoding := b!"gzip", Code := 418 } : Fields) b!"new" = plainly 200 b!"text/html" b!"new" := by decide

end Indigo.Props
