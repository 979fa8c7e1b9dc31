/-
Properties C63 (unambiguous framing of responses), C64 (attachments are closed), C65 (HTTP/1.0 clients are not sent
the chunked coding).
-/
import Verif.Props.Response

namespace Indigo.Props
open Indigo.Spec Indigo.Serializer

/-- The fields which say where a body ends. -/
def framing (fs : List (Bytes × Bytes)) : List (Bytes × Bytes) :=
  fs.filter (fun kv => lower kv.1 == b!"content-length" || lower kv.1 == b!"transfer-encoding")

/-- No header of the application is about framing. -/
def NoFraming (defaults : List (Bytes × Bytes)) (f : Fields) : Prop :=
  (∀ h ∈ f.Headers, framing [(h.Key, h.Value)] = []) ∧ (∀ d ∈ defaults, framing [d] = []) ∧ f.TransferEncoding = []

theorem framing_name {k v w : Bytes} (h : framing [(k, v)] = []) : framing [(k, w)] = [] := by
  simp only [framing, List.filter_cons, List.filter_nil] at h ⊢
  split at h
  · simp at h
  · rename_i hh; simp only [if_neg hh]

theorem framing_nil {fs : List (Bytes × Bytes)} (h : ∀ kv ∈ fs, framing [kv] = []) : framing fs = [] := by
  unfold framing
  rw [List.filter_eq_nil_iff]
  intro kv hkv hc
  have := h kv hkv
  simp [framing, hc] at this

theorem framing_append (a b : List (Bytes × Bytes)) : framing (a ++ b) = framing a ++ framing b := by
  simp [framing]

theorem framing_own {defaults : List (Bytes × Bytes)} {f : Fields} (h : NoFraming defaults f) (earlier : List Pair)
    (F : Fold) :
    framing ((f.Headers.map (fun h => (h.Key, h.Value))).map (fun kv => (kv.1, stripOWS kv.2))) = [] ∧
    framing ((defaults.filter (fun d => !(earlier ++ f.Headers).any (fun h => F.eq d.1 h.Key))).map
      (fun kv => (kv.1, stripOWS kv.2))) = [] := by
  constructor
  · apply framing_nil
    intro kv hkv
    simp only [List.mem_map] at hkv
    obtain ⟨_, ⟨x, hx, rfl⟩, rfl⟩ := hkv
    exact framing_name (h.1 x hx)
  · apply framing_nil
    intro kv hkv
    simp only [List.mem_map, List.mem_filter] at hkv
    obtain ⟨x, ⟨hx, _⟩, rfl⟩ := hkv
    exact framing_name (v := x.2) (h.2.1 x hx)

/-- C63 (no headers about framing set by the application): a response without attachment is framed by exactly one
field, Content-Length, with the length of the body. -/
theorem C63_one_framing_partial (F : Fold) (n : Int) {defaults : List (Bytes × Bytes)}
    (hd : DefaultsOK F defaults) (history : List Sent) (p : Proto) {version : Bytes} (hp : versionName p = some version)
    (req : Request) (hm : req.Method ≠ .HEAD) {f : Fields} (hf : ResponseClean f) (ha : f.Attachment.content = none)
    (hno : NoFraming defaults f) (c : Client) :
    ∃ text m v, ((serializerAfter F n defaults history).write F p req f c).client.written = c.written ++ [text] ∧
      readMsg text = some m ∧ framing m.fields = [(b!"Content-Length", v)] ∧ readDecimal v = some m.rest.length := by
  obtain ⟨text, h1, h2⟩ := C25_response_readable_partial F n hd history p hp req hm hf ha c
  obtain ⟨t1, t2⟩ := framing_own hno (headersSet history) F
  refine ⟨text, _, decBytes f.Body.length, h1, h2, ?_, readDecimal_decBytes _⟩
  simp only [expectedFields, List.map_append, framing_append]
  have t3 : framing ((f.Cookies.map (fun c => (b!"Set-Cookie", setCookieValue c))).map (fun kv => (kv.1, stripOWS kv.2))) = [] := by
    apply framing_nil
    intro kv hkv
    simp only [List.mem_map] at hkv
    obtain ⟨_, ⟨x, hx, rfl⟩, rfl⟩ := hkv
    exact framing_name (k := b!"Set-Cookie") (v := []) (by decide)
  rw [t1, t2, t3, hno.2.2]
  have t4 : framing ([(b!"Content-Type", f.ContentType)].map (fun kv => (kv.1, stripOWS kv.2))) = [] :=
    framing_name (k := b!"Content-Type") (v := []) (by decide)
  have t5 : framing ([(b!"Content-Length", decBytes f.Body.length)].map (fun kv => (kv.1, stripOWS kv.2))) =
      [(b!"Content-Length", decBytes f.Body.length)] := by
    simp only [List.map_cons, List.map_nil, stripOWS_decBytes]
    have hl : (lower b!"Content-Length" == b!"content-length") = true := by decide
    simp [framing, hl]
  rw [t4, t5]
  simp [framing]

/-- C63: a response with an attachment (and no framing headers set by the application) is framed by exactly one
field: Content-Length if the size is known, else Transfer-Encoding. -/
theorem C63_one_framing_attachment_partial (F : Fold) (n : Int) {defaults : List (Bytes × Bytes)}
    (hd : DefaultsOK F defaults) (history : List Sent) (p : Proto) {version : Bytes} (hp : versionName p = some version)
    (req : Request) {f : Fields} (hf : ResponseClean f) {r : Reader} (ha : f.Attachment.content = some r)
    (hno : NoFraming defaults f) (c : Client) :
    ∃ text m, c.written ++ [text] <+: ((serializerAfter F n defaults history).write F p req f c).client.written ∧
      readMsg text = some m ∧
      framing m.fields = (if f.Attachment.size > 0 then [(b!"Content-Length", decBytes f.Attachment.size.toNat)]
        else [(b!"Transfer-Encoding", b!"chunked")]) := by
  obtain ⟨text, h1, h2⟩ := C25_attachment_head_partial F n hd history p hp req hf ha c
  obtain ⟨t1, t2⟩ := framing_own hno (headersSet history) F
  refine ⟨text, _, h1, h2, ?_⟩
  simp only [attachmentFields, List.map_append, framing_append]
  have t4 : framing ([(b!"Content-Type", f.ContentType)].map (fun kv => (kv.1, stripOWS kv.2))) = [] :=
    framing_name (k := b!"Content-Type") (v := []) (by decide)
  rw [t1, t2, t4, hno.2.2]
  by_cases hs : f.Attachment.size > 0
  · simp only [if_pos hs, if_true, List.nil_append, List.map_cons, List.map_nil, stripOWS_decBytes]
    have hl : (lower b!"Content-Length" == b!"content-length") = true := by decide
    simp [framing, hl]
  · simp only [if_neg hs]
    decide

example : NoFraming [(b!"Server", b!"x")] sample := by
  refine ⟨?_, ?_, rfl⟩
  · intro h hh; simp [sample] at hh; subst hh; decide
  · intro h hh; simp at hh; subst hh; decide

set_option maxRecDepth 20000 in
/-- C63 is false of the code: with a transfer encoding set, the response carries both Transfer-Encoding and
Content-Length (with an uncoded body). -/
theorem C63_both_headers_violation :
    let w := (Serializer.new 16 []).write Fold.ascii Proto.HTTP11 sampleReq
      ((sample.transferEncoding b!"chunked")) {}
    ∃ m, readMsg (sentBytes w) = some m ∧
      framing m.fields = [(b!"Transfer-Encoding", b!"chunked"), (b!"Content-Length", b!"5")] ∧ m.rest = b!"hello" :=
  ⟨_, rfl, by decide⟩

/-- C63 is false of the code: a Content-Length set by the application is written next to the one of the
serializer. -/
theorem C63_two_lengths_violation :
    let w := (Serializer.new 16 []).write Fold.ascii Proto.HTTP11 sampleReq
      { Headers := [⟨b!"Content-Length", b!"3"⟩], Body := b!"hello" } {}
    ∃ m, readMsg (sentBytes w) = some m ∧
      framing m.fields = [(b!"Content-Length", b!"3"), (b!"Content-Length", b!"5")] :=
  ⟨_, rfl, by decide⟩

/-- C63 is false of the code: a file which has grown since its size was looked up (or a reader with more data than declared) is sent as a whole; the surplus
follows the body, where a client expects the next response. -/
theorem C63_longer_attachment_violation :
    let w := (Serializer.new 16 []).write Fold.ascii Proto.HTTP11 sampleReq (({} : Fields).attachment (some [(b!"hi", none), (b!"HTTP/1.1 ", none)]) 2) {}
    ∃ m, readMsg (sentBytes w) = some m ∧ framing m.fields = [(b!"Content-Length", b!"2")] ∧ m.rest = b!"hi" ++ b!"HTTP/1.1 " ∧
      w.out = .done none :=
  ⟨_, rfl, by decide⟩

/-- C63 is false of the code: of a file which has become shorter, less than announced is sent, and the connection is kept, so that a client takes the next
response for the rest. -/
theorem C63_shorter_attachment_violation :
    let w := (Serializer.new 16 []).write Fold.ascii Proto.HTTP11 sampleReq (({} : Fields).attachment (some [(b!"hi", none)]) 5) {}
    ∃ m, readMsg (sentBytes w) = some m ∧ framing m.fields = [(b!"Content-Length", b!"5")] ∧ m.rest = b!"hi" ∧ w.out = .done none :=
  ⟨_, rfl, by decide⟩

/-- C64: unless the request is HEAD or writing the head fails, the reader of an attachment is closed, whatever the
reader and the connection do (file buffers below 4 GiB). -/
theorem C64_attachment_closed_partial (F : Fold) (n : Int) (hn : n < 16 ^ 8) {defaults : List (Bytes × Bytes)}
    (hd : DefaultsOK F defaults) (history : List Sent) (p : Proto) (req : Request) (hm : req.Method ≠ .HEAD)
    {f : Fields} {r : Reader} (ha : f.Attachment.content = some r) (c : Client) (hhead : (c.write []).1 = none) :
    ((serializerAfter F n defaults history).write F p req f c).closed = true := by
  have hr := ready_after n hd.distinct history
  generalize serializerAfter F n defaults history = d at hr
  have hmem := mem_ready hr
  have hok : (c.write (attachText F d p f)).1 = none := hhead
  rw [write_attachment F d p req f c r ha]
  simp only
  cases hw : c.write (attachText F d p f) with
  | mk e c1 =>
    rw [hw] at hok
    simp only at hok
    subst hok
    simp only [if_neg hm, stream]
    generalize (if d.fileBuff.length = 0 then List.replicate d.fileBuffSize 0 else d.fileBuff) = mem at hmem
    have h16 : 16 ≤ mem.length ∧ mem.length < 16 ^ 8 := by rw [hmem]; split <;> omega
    split
    · simpa using writePlainBody_panic _ _ _ _
    · obtain ⟨chunks, hcs, hne, hst⟩ := writeChunkedBody_spec (readerSize r) mem r c1 (Nat.le_refl _) h16.1 h16.2
      simpa using hst.panic

example : (({} : Client).write []).1 = none := rfl

/-- C64 is false of the code: the attachment of a response to HEAD is never closed. -/
theorem C64_head_not_closed_violation :
    ((Serializer.new 16 []).write Fold.ascii Proto.HTTP11 { sampleReq with Method := .HEAD }
      (({} : Fields).attachment (some [(b!"x", none)]) 1) {}).closed = false := by decide

/-- C64 is false of the code: the attachment is not closed if writing the head fails. -/
theorem C64_failed_head_not_closed_violation :
    ((Serializer.new 16 []).write Fold.ascii Proto.HTTP11 sampleReq
      (({} : Fields).attachment (some [(b!"x", none)]) 1) { wscript := [some .eof] }).closed = false := by decide

/-- C65 is false of the code: an HTTP/1.0 client, which does not know the chunked coding, is sent it for
attachments of unknown size. -/
theorem C65_chunked_to_http10_violation :
    let w := (Serializer.new 16 []).write Fold.ascii Proto.HTTP10 { sampleReq with Proto := Proto.HTTP10 }
      (({} : Fields).attachment (some [(b!"x", none)]) 0) {}
    ∃ m, readMsg (sentBytes w) = some m ∧ m.version = b!"HTTP/1.0" ∧
      (b!"Transfer-Encoding", b!"chunked") ∈ m.fields :=
  ⟨_, rfl, by decide⟩

/-- C65, where it holds: without an attachment of unknown size and unless the application asks for it, no response
is sent in a transfer encoding. -/
theorem C65_no_coding_partial (F : Fold) (n : Int) {defaults : List (Bytes × Bytes)}
    (hd : DefaultsOK F defaults) (history : List Sent) (p : Proto) {version : Bytes} (hp : versionName p = some version)
    (req : Request) {f : Fields} (hf : ResponseClean f) (hno : NoFraming defaults f)
    (ha : f.Attachment.content = none ∨ f.Attachment.size > 0) (hm : req.Method ≠ .HEAD) (c : Client) :
    ∃ text m, c.written ++ [text] <+: ((serializerAfter F n defaults history).write F p req f c).client.written ∧
      readMsg text = some m ∧ ∀ kv ∈ m.fields, lower kv.1 ≠ b!"transfer-encoding" := by
  have key : ∀ (fs : List (Bytes × Bytes)) (v : Bytes), framing fs = [(b!"Content-Length", v)] →
      ∀ kv ∈ fs, lower kv.1 ≠ b!"transfer-encoding" := by
    intro fs v h kv hkv he
    have : kv ∈ framing fs := List.mem_filter.2 ⟨hkv, by simp [he]⟩
    rw [h] at this
    simp at this
    rw [this] at he
    revert he; simp only; decide
  cases hc : f.Attachment.content with
  | none =>
    obtain ⟨text, m, v, h1, h2, h3, _⟩ := C63_one_framing_partial F n hd history p hp req hm hf hc hno c
    exact ⟨text, m, by rw [h1]; exact List.prefix_refl _, h2, key _ _ h3⟩
  | some r =>
    have hs : f.Attachment.size > 0 := by
      rcases ha with ha | ha
      · rw [hc] at ha; cases ha
      · exact ha
    obtain ⟨text, m, h1, h2, h3⟩ := C63_one_framing_attachment_partial F n hd history p hp req hf hc hno c
    rw [if_pos hs] at h3
    exact ⟨text, m, h1, h2, key _ _ h3⟩

end Indigo.Props
