/-
C25, C26, C27, C51 for the heads of all responses: with and without attachment, to HEAD and to other methods.
-/
import Verif.Props.Response

namespace Indigo.Props
open Spec Serializer

/-- The header fields of a response, with an attachment or without. -/
def headFields (F : Fold) (defaults : List (Bytes × Bytes)) (earlier : List Pair) (f : Fields) : List (Bytes × Bytes) :=
  if f.Attachment.content = none then expectedFields F defaults earlier f else attachmentFields F defaults earlier f

/-- **C25 (part).** The first thing written for any response (to HEAD or another method, with an attachment or without,
whether or not the writes succeed) is its head, followed by the body if this is in memory and the method is not HEAD. An
independent reader finds in the head, whatever comes after it, the version, the code and the fields of `headFields`, and
gives back what comes after it. Missing: protocol versions without a name, and cookies of responses with attachments (see
`C25_unknown_version_violation`, `C25_attachment_cookies_violation`). -/
theorem C25_every_head_partial (F : Fold) (n : Int) {defaults : List (Bytes × Bytes)}
    (hd : DefaultsOK F defaults) (history : List Sent) (p : Proto) {version : Bytes} (hp : versionName p = some version)
    (req : Request) {f : Fields} (hf : ResponseClean f) (c : Client) :
    ∃ head, c.written ++ [head ++ if req.Method = .HEAD ∨ f.Attachment.content ≠ none then [] else f.Body] <+:
        ((serializerAfter F n defaults history).write F p req f c).client.written ∧
      ∀ more, readMsg (head ++ more) = some {
        version := version, code := f.Code, reason := reasonFor f,
        fields := (headFields F defaults (headersSet history) f).map (fun kv => (kv.1, stripOWS kv.2)),
        rest := more } := by
  have hr := ready_after n hd.distinct history
  generalize serializerAfter F n defaults history = d at hr
  obtain ⟨hpp, hv⟩ := version_some hp
  cases ha : f.Attachment.content with
  | none =>
    rw [write_plain F d p req f c ha]
    refine ⟨Proto.toBytes p ++ plainHead F (defaultsAfter F defaults (headersSet history)) f, ?_, fun more => ?_⟩
    · simp only [hr.buff, hr.defaults, List.nil_append, Client.write]
      by_cases hm : req.Method = .HEAD <;> simp [hm]
    · rw [read_plain F hd _ hf hpp more, hv, headFields, if_pos ha]
  | some r =>
    refine ⟨attachText F d p f, ?_, fun more => ?_⟩
    · rw [write_attachment F d p req f c r ha]
      have hw1 : (c.write (attachText F d p f)).2.written = c.written ++ [attachText F d p f] := rfl
      simp only [ne_eq, reduceCtorEq, not_false_eq_true, or_true, if_true, List.append_nil]
      cases hw : c.write (attachText F d p f) with
      | mk e c1 =>
        rw [hw] at hw1
        simp only at hw1
        cases e with
        | some x => simp only [hw1]; exact List.prefix_refl _
        | none =>
          simp only [stream]
          split
          · exact hw1 ▸ List.prefix_refl _
          · split
            · exact hw1 ▸ writePlainBody_prefix _ _ _ _
            · exact hw1 ▸ writeChunkedBody_prefix _ _ _ _
    · unfold attachText
      rw [hr.buff, hr.defaults, List.nil_append, read_attach F hd _ hf hpp more, hv, headFields, if_neg (by simp [ha])]

/-- The names of the fields which the serializer writes on its own. -/
def ownNames : List Bytes := [b!"Content-Type", b!"Transfer-Encoding", b!"Set-Cookie", b!"Content-Length"]

theorem headFields_split (F : Fold) (defaults : List (Bytes × Bytes)) (earlier : List Pair) (f : Fields) :
    ∃ tail, headFields F defaults earlier f = f.Headers.map (fun h => (h.Key, h.Value)) ++
      defaults.filter (fun d => !(earlier ++ f.Headers).any (fun h => F.eq d.1 h.Key)) ++ tail ∧
      ∀ kv ∈ tail, kv.1 ∈ ownNames := by
  unfold headFields
  split
  · refine ⟨[(b!"Content-Type", f.ContentType)] ++
      (if f.TransferEncoding = [] then [] else [(b!"Transfer-Encoding", f.TransferEncoding)]) ++
      f.Cookies.map (fun c => (b!"Set-Cookie", setCookieValue c)) ++
      [(b!"Content-Length", decBytes f.Body.length)], by simp [expectedFields], ?_⟩
    intro kv hkv
    simp only [List.mem_append, List.mem_map] at hkv
    rcases hkv with ((hkv | hkv) | ⟨c, _, rfl⟩) | hkv
    · simp at hkv; subst hkv; simp [ownNames]
    · split at hkv
      · simp at hkv
      · simp at hkv; subst hkv; simp [ownNames]
    · simp [ownNames]
    · simp at hkv; subst hkv; simp [ownNames]
  · refine ⟨[(b!"Content-Type", f.ContentType)] ++ (if f.Attachment.size > 0 then
      (if f.TransferEncoding = [] then [] else [(b!"Transfer-Encoding", f.TransferEncoding)]) ++
      [(b!"Content-Length", decBytes f.Attachment.size.toNat)]
      else [(b!"Transfer-Encoding", b!"chunked")]), by simp [attachmentFields], ?_⟩
    intro kv hkv
    simp only [List.mem_append] at hkv
    rcases hkv with hkv | hkv
    · simp at hkv; subst hkv; simp [ownNames]
    · split at hkv
      · simp only [List.mem_append] at hkv
        rcases hkv with hkv | hkv
        · split at hkv
          · simp at hkv
          · simp at hkv; subst hkv; simp [ownNames]
        · simp at hkv; subst hkv; simp [ownNames]
      · simp at hkv; subst hkv; simp [ownNames]

/-- **C26 (part).** The head of any response without line breaks in its values has exactly the fields the response has
set, in their order, then fields from among the defaults, then the serializer's own; and it ends where it should,
whatever follows it. Missing: values with line breaks (see `C26_…_violation`). -/
theorem C26_every_head_partial (F : Fold) (n : Int) {defaults : List (Bytes × Bytes)}
    (hd : DefaultsOK F defaults) (history : List Sent) (p : Proto) {version : Bytes} (hp : versionName p = some version)
    (req : Request) {f : Fields} (hf : ResponseClean f) (c : Client) :
    ∃ head, c.written ++ [head ++ if req.Method = .HEAD ∨ f.Attachment.content ≠ none then [] else f.Body] <+:
        ((serializerAfter F n defaults history).write F p req f c).client.written ∧
      ∀ more, ∃ m, readMsg (head ++ more) = some m ∧ m.rest = more ∧
        m.fields.take f.Headers.length = f.Headers.map (fun h => (h.Key, stripOWS h.Value)) ∧
        (∀ kv ∈ m.fields.drop f.Headers.length, (∃ d ∈ defaults, kv = (d.1, stripOWS d.2)) ∨ kv.1 ∈ ownNames) := by
  obtain ⟨head, h1, h2⟩ := C25_every_head_partial F n hd history p hp req hf c
  refine ⟨head, h1, fun more => ⟨_, h2 more, rfl, ?_, ?_⟩⟩ <;>
    obtain ⟨tail, ht, hown⟩ := headFields_split F defaults (headersSet history) f
  · simp only [ht, List.map_append, List.append_assoc]
    rw [List.take_append_of_le_length (by simp), List.take_of_length_le (by simp)]
    simp [Function.comp_def]
  · simp only [ht, List.map_append, List.append_assoc]
    rw [List.drop_append_of_le_length (by simp), List.drop_of_length_le (by simp)]
    intro kv hkv
    simp only [List.nil_append, List.mem_append, List.mem_map, List.mem_filter] at hkv
    rcases hkv with ⟨d, ⟨hm, _⟩, rfl⟩ | ⟨d, hm, rfl⟩
    · exact Or.inl ⟨d, hm, rfl⟩
    · exact Or.inr (hown d hm)

/-- The default headers under the name of one of them. -/
private theorem defaults_named (F : Fold) (hs : List Pair) {defaults : List (Bytes × Bytes)} {k v : Bytes}
    (hkv : (k, v) ∈ defaults) (hpw : defaults.Pairwise (fun a b => F.eq a.1 b.1 = false)) :
    ((defaults.filter (fun d => !hs.any (fun h => F.eq d.1 h.Key))).map
      (fun kv => (kv.1, stripOWS kv.2))).filter (fun kv => F.eq kv.1 k) =
      if hs.any (fun h => F.eq k h.Key) then [] else [(k, stripOWS v)] := by
  induction defaults with
  | nil => simp at hkv
  | cons x xs ih =>
    rw [List.pairwise_cons] at hpw
    rcases List.mem_cons.1 hkv with rfl | hmem
    · have hrest : ((xs.filter (fun d => !hs.any (fun h => F.eq d.1 h.Key))).map
          (fun kv => (kv.1, stripOWS kv.2))).filter (fun kv => F.eq kv.1 k) = [] := by
        rw [List.filter_eq_nil_iff]
        intro y hy
        simp only [List.mem_map, List.mem_filter] at hy
        obtain ⟨z, ⟨hz, _⟩, rfl⟩ := hy
        have := hpw.1 z hz
        simp only at this
        rw [Fold_eq_comm] at this
        simp [this]
      have hkk : F.eq k k = true := by simp [Fold.eq]
      cases hany : hs.any (fun h => F.eq k h.Key) with
      | true =>
        simp only [List.filter_cons, hany, Bool.not_true, Bool.false_eq_true, if_false]
        rw [hrest]; simp
      | false =>
        simp only [List.filter_cons, hany, Bool.not_false, if_true, List.map_cons, hkk]
        rw [hrest]; simp
    · have hx : F.eq x.1 k = false := hpw.1 _ hmem
      simp only [List.filter_cons]
      split
      · simp only [List.map_cons, List.filter_cons, hx, Bool.false_eq_true, if_false]
        exact ih hmem hpw.2
      · exact ih hmem hpw.2

/-- **C27 (part).** In the head of any response, there are under the name of a default header (which is not one the
serializer writes itself) the response's own values, and the default value exactly if neither the response nor any
earlier one on the connection has set a header of that name. Missing: the default value after an earlier response has
overridden it (see `C27_default_header_lost_violation`). -/
theorem C27_every_head_partial (F : Fold) (n : Int) {defaults : List (Bytes × Bytes)}
    (hd : DefaultsOK F defaults) (history : List Sent) (p : Proto) {version : Bytes} (hp : versionName p = some version)
    (req : Request) {f : Fields} (hf : ResponseClean f) (c : Client) {k v : Bytes} (hkv : (k, v) ∈ defaults)
    (hown : ∀ x ∈ ownNames, F.eq x k = false) :
    ∃ head, c.written ++ [head ++ if req.Method = .HEAD ∨ f.Attachment.content ≠ none then [] else f.Body] <+:
        ((serializerAfter F n defaults history).write F p req f c).client.written ∧
      ∀ more, ∃ m, readMsg (head ++ more) = some m ∧ m.rest = more ∧
        named F k m.fields =
          (f.Headers.filter (fun h => F.eq h.Key k)).map (fun h => (h.Key, stripOWS h.Value)) ++
          (if (headersSet history ++ f.Headers).any (fun h => F.eq k h.Key) then [] else [(k, stripOWS v)]) := by
  obtain ⟨head, h1, h2⟩ := C25_every_head_partial F n hd history p hp req hf c
  refine ⟨head, h1, fun more => ⟨_, h2 more, rfl, ?_⟩⟩
  obtain ⟨tail, ht, ho⟩ := headFields_split F defaults (headersSet history) f
  simp only [named, ht, List.map_append, List.filter_append]
  rw [defaults_named F _ hkv hd.distinct]
  have t1 : (tail.map (fun kv => (kv.1, stripOWS kv.2))).filter (fun kv => F.eq kv.1 k) = [] := by
    rw [List.filter_eq_nil_iff]
    intro x hx
    obtain ⟨y, hy, rfl⟩ := List.mem_map.1 hx
    simp [hown y.1 (ho y hy)]
  rw [t1, List.append_nil]
  simp [List.filter_map, Function.comp_def]

/-- **C51 (part).** The status line of any response (except 101) has exactly its code, and the registered reason phrase if
there is one. Missing: custom reason phrases, which are not written (`C51_custom_phrase_violation`), and the phrase of 101
(`C51_101_violation`). -/
theorem C51_every_head_partial (F : Fold) (n : Int) {defaults : List (Bytes × Bytes)}
    (hd : DefaultsOK F defaults) (history : List Sent) (p : Proto) {version : Bytes} (hp : versionName p = some version)
    (req : Request) {f : Fields} (hf : ResponseClean f) (h101 : f.Code = 101 → f.Status ≠ []) (c : Client) :
    ∃ head, c.written ++ [head ++ if req.Method = .HEAD ∨ f.Attachment.content ≠ none then [] else f.Body] <+:
        ((serializerAfter F n defaults history).write F p req f c).client.written ∧
      ∀ more, ∃ m, readMsg (head ++ more) = some m ∧ m.rest = more ∧ m.version = version ∧ m.code = f.Code ∧
        m.reason = (phrase f.Code).getD b!"Unknown Status Code" := by
  obtain ⟨head, h1, h2⟩ := C25_every_head_partial F n hd history p hp req hf c
  refine ⟨head, h1, fun more => ⟨_, h2 more, rfl, rfl, rfl, ?_⟩⟩
  simp only [reasonFor]
  rw [if_neg (by intro hc; exact h101 hc.2 hc.1)]
  exact text_phrase f.Code

/-- A response to HEAD with an attachment of unknown size, and one to GET with a header of its own. -/
example :
    ((serializerAfter Fold.ascii 16 [(b!"Server", b!"indigo")] []).write Fold.ascii Proto.HTTP11 { Method := .HEAD }
      (({ Code := 404 } : Fields).attachment (some [(b!"x", some .eof)]) 0) {}).client.written =
      [b!"HTTP/1.1 404 Not Found\r\nServer: indigo\r\nContent-Type: text/html\r\nTransfer-Encoding: chunked\r\n\r\n"] ∧
    (∀ x ∈ ownNames, Fold.ascii.eq x b!"Server" = false) ∧
    ResponseClean (({ Code := 404 } : Fields).attachment (some [(b!"x", some .eof)]) 0) := by
  refine ⟨by decide +kernel, by decide, ?_, ?_, ?_, ?_⟩
  · simp [Fields.attachment]
  · simp [NoBreak, Fields.attachment]
  · simp [NoBreak, Fields.attachment]
  · simp [Fields.attachment]

end Indigo.Props
