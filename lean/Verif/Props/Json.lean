/-
C82 JSON request bodies.
-/
import Verif.Model.Json
import Verif.Spec.Json
import Verif.Props.ServeWitness

namespace Indigo.Props
open Indigo.Serve Indigo.Spec

variable {σ ρ α : Type}

/-- **C82 (part).** A handler called with a request (`Delivered`: on a connection with whatever before and after it) whose
Content-Type is absent, empty, or written exactly `application/json`, gets from `JSON` what the decoder makes of exactly the body which
was sent, with the decoder's error; and the connection is then positioned after this body. (The body is no longer than can be
allocated, or chunked.) -/
theorem C82_decoded_partial (E : Setup σ ρ) {maxTokens remote post env s after seen world}
    (del : Delivered E maxTokens remote post env s after seen world)
    (ct : s.head.last b!"content-type" = none ∨ s.head.last b!"content-type" = some [] ∨ s.head.last b!"content-type" = some b!"application/json")
    (alloc : seen.ContentLength ≤ E.maxAlloc) (decode : Bytes → α × Option GoErr) :
    ∃ body c', (seen.json decode).run E.P E.maxAlloc ⟨world.1, world.2, false⟩ =
      (some (some (decode s.body).1, (decode s.body).2), ⟨body, followedBy c' post, false⟩) ∧ c'.stream = after ∧ Quiet c' := by
  obtain ⟨b, hb, _⟩ := del.fresh
  obtain ⟨ds, b', c', hp, hds, hs, hq, _⟩ := del.body
  obtain ⟨w1, w2⟩ := world
  simp only at hb
  subst hb
  obtain ⟨f1, _, _, f4⟩ := Body.initFor_fresh b seen
  obtain ⟨k1, k2⟩ := Body.bytes_pieces E.P E.maxAlloc hp f1 (by rw [f4]; exact alloc)
  have hct : ¬ (seen.ContentType.length > 0 ∧ seen.ContentType ≠ b!"application/json") := by
    rw [del.carries.contentType]
    rcases ct with h | h | h <;> rw [h] <;> simp
  have hc : (Body.call E.P E.maxAlloc (b.initFor seen, w2) .bytes).1 = .whole (some s.body) none := by
    simp only [Body.call, k1, Body.bytesAnswer, hds]
  have hc2 : (Body.call E.P E.maxAlloc (b.initFor seen, w2) .bytes).2.2 = followedBy c' post := by
    simp only [Body.call, k2]
  unfold Request.json
  rw [if_neg hct]
  simp only [Act.call, Act.bind, Act.run]
  generalize Body.call E.P E.maxAlloc (b.initFor seen, w2) .bytes = x at hc hc2
  obtain ⟨a, w⟩ := x
  simp only at hc hc2
  subst hc
  refine ⟨w.1, c', ?_, hs, hq⟩
  simp only [Act.bind, Act.run, Option.getD_some, ← hc2]

/-- **C82 (part).** A request whose Content-Type says something else is refused with 415, and nothing of its body is
read. -/
theorem C82_refused (P : ChunkedParser σ) (maxAlloc : Nat) (seen : Request) (ne : seen.ContentType ≠ [])
    (other : saysJSON seen.ContentType = false) (decode : Bytes → α × Option GoErr) (w : Act.World σ) :
    (seen.json decode).run P maxAlloc w = (some (none, some (.http Status.ErrUnsupportedMediaType)), w) := by
  have : seen.ContentType ≠ b!"application/json" := by
    intro h
    rw [h] at other
    revert other
    decide
  unfold Request.json
  rw [if_pos ⟨List.length_pos_iff.2 ne, this⟩]
  rfl

/-- **C82 (part).** If the body cannot be retrieved, the error is returned and the decoder not called. -/
theorem C82_body_error (P : ChunkedParser σ) (maxAlloc : Nat) (seen : Request) (e : GoErr) (w : Act.World σ)
    (ct : seen.ContentType = [] ∨ seen.ContentType = b!"application/json")
    (fails : (Body.bytes P maxAlloc (w.body, w.client)).1 = .ok (none, some e)) (decode : Bytes → α × Option GoErr) :
    ((seen.json decode).run P maxAlloc w).1 = some (none, some e) := by
  have hct : ¬ (seen.ContentType.length > 0 ∧ seen.ContentType ≠ b!"application/json") := by
    rcases ct with h | h <;> rw [h] <;> simp
  unfold Request.json
  rw [if_neg hct]
  simp only [Act.call, Act.bind, Act.run, Body.call, fails]

/-- **C82** is false: every other way to write the media type of JSON is refused. -/
theorem C82_media_type_violation (P : ChunkedParser σ) (maxAlloc : Nat) (seen : Request) (says : saysJSON seen.ContentType = true)
    (other : seen.ContentType ≠ b!"application/json") (decode : Bytes → α × Option GoErr) (w : Act.World σ) :
    (seen.json decode).run P maxAlloc w = (some (none, some (.http Status.ErrUnsupportedMediaType)), w) := by
  have ne : seen.ContentType ≠ [] := by
    intro h
    rw [h] at says
    revert says
    decide
  unfold Request.json
  rw [if_pos ⟨List.length_pos_iff.2 ne, other⟩]
  rfl

/-- These say JSON, and those do not. -/
example : ([b!"application/json; charset=utf-8", b!"Application/JSON", b!"application/json ;a=b", b!"application/json"].all saysJSON) = true ∧
    ([b!"text/html", b!"application/jsonp", b!"application/json/x", b!""].any saysJSON) = false := by decide +kernel

/-- A handler which expects JSON, and reports what has been decoded; here the decoder gives the text itself, and refuses the empty one. -/
def wantsJSON : Router.Handler Act := fun r => do
  match ← r.json (fun d => (d, if d = [] then some (GoErr.other 5) else none)) with
  | (some d, none) => pure (Fields.new.bytes d, r)
  | (_, e) => pure (Fields.new.error (fun _ => b!"bad") e [], r)

/-- Over a connection: a JSON body in two segments, the same with a charset, and one without a Content-Type. -/
example : ((exchange wantsJSON 0
    [b!"POST / HTTP/1.1\r\nContent-Type: application/json\r\nContent-Length: 5\r\n\r\n[1,", b!"2]",
     b!"POST / HTTP/1.1\r\nContent-Type: application/json; charset=utf-8\r\nContent-Length: 5\r\n\r\n[1,2]",
     b!"POST / HTTP/1.1\r\nContent-Length: 5\r\n\r\n[1,2]", b!"POST / HTTP/1.1\r\n\r\n"]).1.map readMsg).map
      (Option.map (fun m => (m.code, m.rest))) =
    [some (200, b!"[1,2]"), some (415, []), some (200, b!"[1,2]"), some (500, b!"bad")] := by
  decide +kernel

/-- The hypotheses of `C82_body_error` are met: the connection fails within the body. -/
example : (Body.bytes refParser 1000 ((Body.new refParser 100).initFor { ContentLength := 5 },
    { conn := [(b!"[1,", none), ([], some (.other 7))] })).1 = .ok (none, some (.other 7)) := by decide +kernel

end Indigo.Props
