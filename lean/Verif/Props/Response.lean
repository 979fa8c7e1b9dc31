/-
Properties C25-C31, C34, C51, C63-C65: what goes over the connection for a response.

Reading back is done by `Spec.readMsg`, an independent reader of HTTP/1.x messages. `serializerAfter F n defaults
history` is the serializer of a connection after the responses `history`.
-/
import Verif.Proofs.Exchange

namespace Indigo.Props
open Indigo.Spec Indigo.Serializer

/-! ### Witnesses -/

/-- The response `200 OK` with one header, one cookie and a body. -/
def sample : Fields :=
  { Headers := [⟨b!"X-Id", b!"42"⟩], Body := b!"hello", Cookies := [{ Name := b!"a", Value := b!"b", Secure := true }] }

def sampleReq : Request := { Method := .GET, Proto := Proto.HTTP11 }

/-- Data which have been written to the connection of a witness. -/
def sentBytes (w : Written) : Bytes := w.client.written.flatten

/-! ### C25 -/

/-- C25 (responses without attachment, protocol versions which have a name): the text of the response is written
in one piece and an independent reader finds in it the version, the code, the headers in order followed by the
default headers which have not been set, the content type, the cookies, a Content-Length which is the length of
the body, and after the head exactly the body. `expectedFields` lists these fields. -/
theorem C25_response_readable_partial (F : Fold) (n : Int) {defaults : List (Bytes × Bytes)}
    (hd : DefaultsOK F defaults) (history : List Sent) (p : Proto) {version : Bytes} (hp : versionName p = some version)
    (req : Request) (hm : req.Method ≠ .HEAD) {f : Fields} (hf : ResponseClean f) (ha : f.Attachment.content = none)
    (c : Client) :
    ∃ text, ((serializerAfter F n defaults history).write F p req f c).client.written = c.written ++ [text] ∧
      readMsg text = some {
        version := version, code := f.Code, reason := reasonFor f,
        fields := (expectedFields F defaults (headersSet history) f).map (fun kv => (kv.1, stripOWS kv.2)),
        rest := f.Body } := by
  have hr := ready_after n hd.distinct history
  generalize serializerAfter F n defaults history = d at hr
  obtain ⟨hpp, hv⟩ := version_some hp
  rw [write_plain F d p req f c ha]
  refine ⟨_, rfl, ?_⟩
  rw [hr.buff, hr.defaults, List.nil_append, if_pos hm, read_plain F hd _ hf hpp, hv]

/-- C25, Content-Length: among the fields of `expectedFields` there is a Content-Length with the length of the
body in decimal. -/
theorem C25_content_length (F : Fold) (defaults : List (Bytes × Bytes)) (earlier : List Pair) (f : Fields) :
    ∃ v, (b!"Content-Length", v) ∈ expectedFields F defaults earlier f ∧ readDecimal v = some f.Body.length :=
  ⟨decBytes f.Body.length, by simp [expectedFields], readDecimal_decBytes _⟩

/-- C25 is false of the code for responses to requests with an unknown protocol version (such as the error
response to `GET / HTTP/3.0`): there is no version in the status line. -/
theorem C25_unknown_version_violation :
    let w := (Serializer.new 16 []).write Fold.ascii Proto.Unknown sampleReq sample {}
    w.out = .done (some (.http Status.ErrCloseConnection)) ∧ (sentBytes w).take 8 = b!"200 OK\r\n" ∧
    readMsg (sentBytes w) = none := by decide

/-- C25 is false of the code for responses with an attachment: their cookies are not written. -/
theorem C25_attachment_cookies_violation :
    let w := (Serializer.new 16 []).write Fold.ascii Proto.HTTP11 sampleReq
      (sample.attachment (some [(b!"data", none)]) 4) {}
    w.out = .done none ∧ ∃ m, readMsg (sentBytes w) = some m ∧ m.fields.map (·.1) =
      [b!"X-Id", b!"Content-Type", b!"Content-Length"] := by
  refine ⟨by decide, _, rfl, by decide⟩

/-- C25 for responses with an attachment: the head is written in one piece, and read back it has the fields of
`attachmentFields`. -/
theorem C25_attachment_head_partial (F : Fold) (n : Int) {defaults : List (Bytes × Bytes)}
    (hd : DefaultsOK F defaults) (history : List Sent) (p : Proto) {version : Bytes} (hp : versionName p = some version)
    (req : Request) {f : Fields} (hf : ResponseClean f) {r : Reader} (ha : f.Attachment.content = some r)
    (c : Client) :
    ∃ text, c.written ++ [text] <+: ((serializerAfter F n defaults history).write F p req f c).client.written ∧
      readMsg text = some {
        version := version, code := f.Code, reason := reasonFor f,
        fields := (attachmentFields F defaults (headersSet history) f).map (fun kv => (kv.1, stripOWS kv.2)),
        rest := [] } := by
  have hr := ready_after n hd.distinct history
  generalize serializerAfter F n defaults history = d at hr
  obtain ⟨hpp, hv⟩ := version_some hp
  refine ⟨attachText F d p f, ?_, ?_⟩
  · rw [write_attachment F d p req f c r ha]
    have hw1 : (c.write (attachText F d p f)).2.written = c.written ++ [attachText F d p f] := rfl
    simp only
    cases hw : c.write (attachText F d p f) with
    | mk e c1 =>
      rw [hw] at hw1
      simp only at hw1
      cases e with
      | some x => simp only [hw1]; exact List.prefix_refl _
      | none =>
        simp only
        split
        · simp only [hw1]; exact List.prefix_refl _
        · simp only [stream]
          split
          · exact hw1 ▸ writePlainBody_prefix _ _ _ _
          · exact hw1 ▸ writeChunkedBody_prefix _ _ _ _
  · unfold attachText
    have := read_attach F hd (headersSet history) hf hpp []
    rw [List.append_nil] at this
    rw [hr.buff, hr.defaults, List.nil_append, this, hv]

example : ResponseClean sample ∧ DefaultsOK Fold.ascii [(b!"Server", b!"indigo"), (b!"X-Id", b!"none")] ∧
    expectedFields Fold.ascii [(b!"Server", b!"indigo"), (b!"X-Id", b!"none")] [] sample =
      [(b!"X-Id", b!"42"), (b!"Server", b!"indigo"), (b!"Content-Type", b!"text/html"),
       (b!"Set-Cookie", b!"a=b; Secure"), (b!"Content-Length", b!"5")] := by
  refine ⟨⟨?_, ?_, ?_, ?_⟩, ⟨?_, by decide⟩, by decide⟩
  · simp [sample, NameOK, NoBreak]
  · simp [sample, NoBreak]
  · simp [sample, NoBreak]
  · intro c hc
    simp [sample] at hc; subst hc
    simp only [NoBreak]; decide
  · simp [NameOK, NoBreak]

/-! ### C26 -/

/-- C26 is false of the code: a header value with a line break in it adds a header of its own. -/
theorem C26_header_injection_violation :
    let w := (Serializer.new 16 []).write Fold.ascii Proto.HTTP11 sampleReq
      { Headers := [⟨b!"Location", b!"/\r\nSet-Cookie: admin=1"⟩] } {}
    ∃ m, readMsg (sentBytes w) = some m ∧ (b!"Set-Cookie", b!"admin=1") ∈ m.fields :=
  ⟨_, rfl, by decide⟩

/-- C26 is false of the code: a header value may even end the head, so that the rest of it is taken for the
body. -/
theorem C26_response_splitting_violation :
    let w := (Serializer.new 16 []).write Fold.ascii Proto.HTTP11 sampleReq
      { Headers := [⟨b!"Location", b!"/\r\n\r\n<script>"⟩] } {}
    ∃ m, readMsg (sentBytes w) = some m ∧ m.rest.take 8 = b!"<script>" :=
  ⟨_, rfl, by decide⟩

/-- C26 for values without line breaks: whatever the headers are, the response has exactly as many header fields
as have been set (by the response, the defaults, and the serializer itself), and its head ends where it should. -/
theorem C26_clean_values_partial (F : Fold) (n : Int) {defaults : List (Bytes × Bytes)}
    (hd : DefaultsOK F defaults) (history : List Sent) (p : Proto) {version : Bytes} (hp : versionName p = some version)
    (req : Request) (hm : req.Method ≠ .HEAD) {f : Fields} (hf : ResponseClean f) (ha : f.Attachment.content = none)
    (c : Client) :
    ∃ text m, ((serializerAfter F n defaults history).write F p req f c).client.written = c.written ++ [text] ∧
      readMsg text = some m ∧ m.rest = f.Body ∧
      m.fields.take f.Headers.length = f.Headers.map (fun h => (h.Key, stripOWS h.Value)) ∧
      (∀ kv ∈ m.fields.drop f.Headers.length,
        (∃ d ∈ defaults, kv = (d.1, stripOWS d.2)) ∨
        kv.1 ∈ [b!"Content-Type", b!"Transfer-Encoding", b!"Set-Cookie", b!"Content-Length"]) := by
  obtain ⟨text, h1, h2⟩ := C25_response_readable_partial F n hd history p hp req hm hf ha c
  refine ⟨text, _, h1, h2, rfl, ?_, ?_⟩
  · simp only [expectedFields, List.map_append, List.append_assoc]
    rw [List.take_append_of_le_length (by simp), List.take_of_length_le (by simp)]
    simp [Function.comp_def]
  · simp only [expectedFields, List.map_append, List.append_assoc]
    rw [List.drop_append_of_le_length (by simp), List.drop_of_length_le (by simp)]
    intro kv hkv
    simp only [List.nil_append, List.mem_append, List.mem_map, List.mem_filter] at hkv
    rcases hkv with ⟨d, ⟨hm, _⟩, rfl⟩ | ⟨d, hm, rfl⟩ | ⟨d, hm, rfl⟩ | ⟨d, ⟨_, _, rfl⟩, rfl⟩ | ⟨d, hm, rfl⟩
    · exact Or.inl ⟨d, hm, rfl⟩
    · simp at hm; subst hm; simp
    · right
      split at hm
      · simp at hm
      · simp at hm; subst hm; simp
    · simp
    · simp at hm; subst hm; simp

/-! ### C27 -/

/-- C27 is false of the code: a default header which a response has overridden is missing in the later responses
on the connection too. -/
theorem C27_default_header_lost_violation :
    let d := serializerAfter Fold.ascii 16 [(b!"Server", b!"indigo")]
      [{ proto := Proto.HTTP11, req := sampleReq, response := { Headers := [⟨b!"server", b!"mine"⟩] }, conn := {} }]
    ∃ m, readMsg (sentBytes (d.write Fold.ascii Proto.HTTP11 sampleReq {} {})) = some m ∧
      m.fields.map (·.1) = [b!"Content-Type", b!"Content-Length"] :=
  ⟨_, rfl, by decide⟩

/-- The fields of a message with a given name, up to case. -/
def named (F : Fold) (k : Bytes) (fs : List (Bytes × Bytes)) : List (Bytes × Bytes) := fs.filter (fun kv => F.eq kv.1 k)

/-- C27 over histories, what the code does: under the name of a default header (which is not one the serializer
writes itself) a response has its own values, and the default value exactly if neither the response nor any
earlier one on the connection has set a header of that name. -/
theorem C27_history_partial (F : Fold) (n : Int) {defaults : List (Bytes × Bytes)}
    (hd : DefaultsOK F defaults) (history : List Sent) (p : Proto) {version : Bytes} (hp : versionName p = some version)
    (req : Request) (hm : req.Method ≠ .HEAD) {f : Fields} (hf : ResponseClean f) (ha : f.Attachment.content = none)
    (c : Client) {k v : Bytes} (hkv : (k, v) ∈ defaults)
    (hown : ∀ x ∈ [b!"Content-Type", b!"Transfer-Encoding", b!"Set-Cookie", b!"Content-Length"], F.eq x k = false) :
    ∃ text m, ((serializerAfter F n defaults history).write F p req f c).client.written = c.written ++ [text] ∧
      readMsg text = some m ∧
      named F k m.fields =
        (f.Headers.filter (fun h => F.eq h.Key k)).map (fun h => (h.Key, stripOWS h.Value)) ++
        (if (headersSet history ++ f.Headers).any (fun h => F.eq k h.Key) then [] else [(k, stripOWS v)]) := by
  obtain ⟨text, h1, h2⟩ := C25_response_readable_partial F n hd history p hp req hm hf ha c
  refine ⟨text, _, h1, h2, ?_⟩
  simp only [named, expectedFields, List.map_append, List.filter_append]
  -- the fields of the serializer itself
  have t1 : ([(b!"Content-Type", f.ContentType)].map (fun kv => (kv.1, stripOWS kv.2))).filter (fun kv => F.eq kv.1 k) = [] := by
    simp [hown b!"Content-Type" (by simp)]
  have t2 : ((if f.TransferEncoding = [] then [] else [(b!"Transfer-Encoding", f.TransferEncoding)]).map
      (fun kv => (kv.1, stripOWS kv.2))).filter (fun kv => F.eq kv.1 k) = [] := by
    split <;> simp [hown b!"Transfer-Encoding" (by simp)]
  have t3 : ((f.Cookies.map (fun c => (b!"Set-Cookie", setCookieValue c))).map
      (fun kv => (kv.1, stripOWS kv.2))).filter (fun kv => F.eq kv.1 k) = [] := by
    rw [List.filter_eq_nil_iff]
    intro x hx
    simp only [List.mem_map] at hx
    obtain ⟨_, ⟨_, _, rfl⟩, rfl⟩ := hx
    simp [hown b!"Set-Cookie" (by simp)]
  have t4 : ([(b!"Content-Length", decBytes f.Body.length)].map (fun kv => (kv.1, stripOWS kv.2))).filter
      (fun kv => F.eq kv.1 k) = [] := by
    simp [hown b!"Content-Length" (by simp)]
  rw [t1, t2, t3, t4]
  simp only [List.append_nil]
  -- its own headers
  have t5 : ((f.Headers.map (fun h => (h.Key, h.Value))).map (fun kv => (kv.1, stripOWS kv.2))).filter
      (fun kv => F.eq kv.1 k) = (f.Headers.filter (fun h => F.eq h.Key k)).map (fun h => (h.Key, stripOWS h.Value)) := by
    simp [List.filter_map, Function.comp_def]
  rw [t5]
  -- the defaults
  have t6 : ((defaults.filter (fun d => !(headersSet history ++ f.Headers).any (fun h => F.eq d.1 h.Key))).map
      (fun kv => (kv.1, stripOWS kv.2))).filter (fun kv => F.eq kv.1 k) =
      if (headersSet history ++ f.Headers).any (fun h => F.eq k h.Key) then [] else [(k, stripOWS v)] := by
    generalize headersSet history ++ f.Headers = hs
    have hpw := hd.distinct
    clear t1 t2 t3 t4 t5 hm hf ha h1 h2 hd
    induction defaults with
    | nil => simp at hkv
    | cons x xs ih =>
      rw [List.pairwise_cons] at hpw
      rcases List.mem_cons.1 hkv with rfl | hmem
      · have hrest : ((xs.filter (fun d => !hs.any (fun h => F.eq d.1 h.Key))).map
            (fun kv => (kv.1, stripOWS kv.2))).filter (fun kv => F.eq kv.1 k) = [] := by
          rw [List.filter_eq_nil_iff]
          intro y hy
          simp only [List.mem_map, List.mem_filter] at hy
          obtain ⟨z, ⟨hz, _⟩, rfl⟩ := hy
          have := hpw.1 z hz
          simp only at this
          rw [Fold_eq_comm] at this
          simp [this]
        have hkk : F.eq k k = true := by simp [Fold.eq]
        cases hany : hs.any (fun h => F.eq k h.Key) with
        | true =>
          simp only [List.filter_cons, hany, Bool.not_true, Bool.false_eq_true, if_false]
          rw [hrest]; simp
        | false =>
          simp only [List.filter_cons, hany, Bool.not_false, if_true, List.map_cons, hkk]
          rw [hrest]; simp
      · have hx : F.eq x.1 k = false := hpw.1 _ hmem
        simp only [List.filter_cons]
        split
        · simp only [List.map_cons, List.filter_cons, hx, Bool.false_eq_true, if_false]
          exact ih hmem hpw.2
        · exact ih hmem hpw.2
  rw [t6]

/-- C27, for default headers which no earlier response on the connection has set (and which are not written by the
serializer itself): if the response sets a header of that name, its own values are all there is under this name,
otherwise the default value is. -/
theorem C27_default_headers_partial (F : Fold) (n : Int) {defaults : List (Bytes × Bytes)}
    (hd : DefaultsOK F defaults) (history : List Sent) (p : Proto) {version : Bytes} (hp : versionName p = some version)
    (req : Request) (hm : req.Method ≠ .HEAD) {f : Fields} (hf : ResponseClean f) (ha : f.Attachment.content = none)
    (c : Client) {k v : Bytes} (hkv : (k, v) ∈ defaults)
    (hearlier : ∀ h ∈ headersSet history, F.eq k h.Key = false)
    (hown : ∀ x ∈ [b!"Content-Type", b!"Transfer-Encoding", b!"Set-Cookie", b!"Content-Length"], F.eq x k = false) :
    ∃ text m, ((serializerAfter F n defaults history).write F p req f c).client.written = c.written ++ [text] ∧
      readMsg text = some m ∧
      named F k m.fields =
        (if f.Headers.any (fun h => F.eq h.Key k) then
          (f.Headers.filter (fun h => F.eq h.Key k)).map (fun h => (h.Key, stripOWS h.Value))
         else [(k, stripOWS v)]) := by
  obtain ⟨text, m, h1, h2, h3⟩ := C27_history_partial F n hd history p hp req hm hf ha c hkv hown
  refine ⟨text, m, h1, h2, ?_⟩
  rw [h3]
  have hk : (headersSet history ++ f.Headers).any (fun h => F.eq k h.Key) = f.Headers.any (fun h => F.eq h.Key k) := by
    rw [List.any_append]
    have : (headersSet history).any (fun h => F.eq k h.Key) = false := by simpa using hearlier
    rw [this, Bool.false_or]
    congr 1; funext h; exact Fold_eq_comm F _ _
  rw [hk]
  cases hany : f.Headers.any (fun h => F.eq h.Key k) with
  | true => simp
  | false =>
    have : f.Headers.filter (fun h => F.eq h.Key k) = [] := by
      rw [List.filter_eq_nil_iff]; simpa using hany
    simp [this]

example : (∀ h ∈ headersSet [{ proto := Proto.HTTP11, req := sampleReq, response := sample, conn := {} }],
      Fold.ascii.eq b!"Server" h.Key = false) ∧
    (∀ x ∈ [b!"Content-Type", b!"Transfer-Encoding", b!"Set-Cookie", b!"Content-Length"],
      Fold.ascii.eq x b!"Server" = false) := by decide

/-! ### C28 -/

/-- C28: the response to HEAD is what the response to another method with the same content is, without the body:
for in-memory bodies the body is cut off the end, for attachments only the head is written. In both cases the head
is the same. -/
theorem C28_head_response (F : Fold) (d : Serializer) (p : Proto) (req : Request) (hm : req.Method ≠ .HEAD)
    (f : Fields) (c : Client) :
    ∃ head, (d.write F p { req with Method := .HEAD } f c).client.written = c.written ++ [head] ∧
      (f.Attachment.content = none → (d.write F p req f c).client.written = c.written ++ [head ++ f.Body]) ∧
      (f.Attachment.content ≠ none → c.written ++ [head] <+: (d.write F p req f c).client.written) := by
  cases ha : f.Attachment.content with
  | none =>
    refine ⟨d.buff ++ Proto.toBytes p ++ plainHead F d.defaultHeaders f, ?_, ?_, by simp⟩
    · rw [write_plain F d p _ f c ha]; simp [Client.write]
    · intro _
      rw [write_plain F d p req f c ha]
      simp [Client.write, hm]
  | some r =>
    have hw1 : (c.write (attachText F d p f)).2.written = c.written ++ [attachText F d p f] := rfl
    refine ⟨attachText F d p f, ?_, by simp, ?_⟩
    · rw [write_attachment F d p _ f c r ha]
      simp only
      cases hw : c.write (attachText F d p f) with
      | mk e c1 => rw [hw] at hw1; cases e <;> simpa using hw1
    · intro _
      rw [write_attachment F d p req f c r ha]
      simp only
      cases hw : c.write (attachText F d p f) with
      | mk e c1 =>
        rw [hw] at hw1
        simp only at hw1
        cases e with
        | some x => simp only [hw1]; exact List.prefix_refl _
        | none =>
          simp only [if_neg hm, stream]
          split
          · exact hw1 ▸ writePlainBody_prefix _ _ _ _
          · exact hw1 ▸ writeChunkedBody_prefix _ _ _ _

/-- C28, read back: the response to HEAD consists of a complete head and nothing after it. -/
theorem C28_head_only (F : Fold) (n : Int) {defaults : List (Bytes × Bytes)}
    (hd : DefaultsOK F defaults) (history : List Sent) (p : Proto) {version : Bytes} (hp : versionName p = some version)
    (req : Request) (hm : req.Method = .HEAD) {f : Fields} (hf : ResponseClean f) (c : Client) :
    ∃ text m, ((serializerAfter F n defaults history).write F p req f c).client.written = c.written ++ [text] ∧
      readMsg text = some m ∧ m.rest = [] ∧ m.code = f.Code := by
  have hr := ready_after n hd.distinct history
  generalize serializerAfter F n defaults history = d at hr
  obtain ⟨hpp, hv⟩ := version_some hp
  cases ha : f.Attachment.content with
  | none =>
    rw [write_plain F d p req f c ha]
    refine ⟨_, _, rfl, (by
      rw [hr.buff, hr.defaults, List.nil_append, if_neg (by simp [hm])]
      exact read_plain F hd _ hf hpp []), rfl, rfl⟩
  | some r =>
    rw [write_attachment F d p req f c r ha]
    have hw1 : (c.write (attachText F d p f)).2.written = c.written ++ [attachText F d p f] := rfl
    have hread := read_attach F hd (headersSet history) hf hpp []
    refine ⟨attachText F d p f, _, ?_, (by
      unfold attachText
      rw [hr.buff, hr.defaults, List.nil_append, ← hread, List.append_nil]), rfl, rfl⟩
    simp only
    cases hw : c.write (attachText F d p f) with
    | mk e c1 => rw [hw] at hw1; cases e <;> simpa [hm] using hw1

example : sampleReq.Method ≠ .HEAD ∧
    ((Serializer.new 16 []).write Fold.ascii Proto.HTTP11 { sampleReq with Method := .HEAD } sample {}).client.written ≠
    ((Serializer.new 16 []).write Fold.ascii Proto.HTTP11 sampleReq sample {}).client.written := by decide

/-! ### C29 -/

/-- C29 (file buffers below 4 GiB): if no write fails and the reader ends with `io.EOF`, then after the head, which
announces the chunked coding, there is a chunked coding of the very data of the reader, however it returns them;
the reference decoder (which knows nothing of the serializer) recovers them, with nothing left over. -/
theorem C29_chunked_attachment_partial (F : Fold) (n : Int) (hn : n < 16 ^ 8) {defaults : List (Bytes × Bytes)}
    (hd : DefaultsOK F defaults) (history : List Sent) (p : Proto) {version : Bytes} (hp : versionName p = some version)
    (req : Request) (hm : req.Method ≠ .HEAD) {f : Fields} (hf : ResponseClean f) {r : Reader}
    (ha : f.Attachment.content = some r) (hs : f.Attachment.size ≤ 0) (hend : readerEnd r = .eof)
    (c : Client) (hc : NoWriteError c) :
    let w := (serializerAfter F n defaults history).write F p req f c
    w.out = .done none ∧ ∃ head m body chunks, w.client.written.flatten = c.written.flatten ++ head ++ body ∧
      readMsg head = some m ∧ m.rest = [] ∧ (b!"Transfer-Encoding", b!"chunked") ∈ m.fields ∧
      ChunkedCoding chunks body ∧ chunks.flatten = readerData r ∧
      refDecoding (.size 0 false) false body (readerData r) [] := by
  have hr := ready_after n hd.distinct history
  generalize serializerAfter F n defaults history = d at hr
  obtain ⟨hpp, hv⟩ := version_some hp
  have hread := read_attach F hd (headersSet history) hf hpp []
  have hmem := mem_ready hr
  have hw1 : (c.write (attachText F d p f)).2.written = c.written ++ [attachText F d p f] := rfl
  obtain ⟨hok, hno⟩ := write_noError hc (attachText F d p f)
  rw [write_attachment F d p req f c r ha]
  simp only
  cases hw : c.write (attachText F d p f) with
  | mk e c1 =>
    rw [hw] at hok hno hw1
    simp only at hok hno hw1
    subst hok
    simp only [if_neg hm, stream, if_neg (show ¬ f.Attachment.size > 0 by omega)]
    generalize (if d.fileBuff.length = 0 then List.replicate d.fileBuffSize 0 else d.fileBuff) = mem at hmem
    have h16 : 16 ≤ mem.length ∧ mem.length < 16 ^ 8 := by rw [hmem]; split <;> omega
    obtain ⟨chunks, hcs, hne, hst⟩ := writeChunkedBody_spec (readerSize r) mem r c1 (Nat.le_refl _) h16.1 h16.2
    obtain ⟨ws, hws, _, _, hfull⟩ := hst.written
    have hfull := hfull hno
    have hcod := frames_coding chunks hne
    have hflat : ws.flatten = chunks.flatMap frame ++ b!"0\r\n\r\n" := by
      rw [hfull, hend]; simp [fullChunked, List.flatMap]
    refine ⟨by rw [(hst.out hno).1, hend]; simp [endOut], attachText F d p f, _, ws.flatten, chunks, ?_, (by
      unfold attachText
      rw [hr.buff, hr.defaults, List.nil_append, ← hread, List.append_nil]), rfl, ?_, ?_, hcs, ?_⟩
    · rw [hws, hw1]; simp
    · simp only [attachmentFields, if_neg (show ¬ f.Attachment.size > 0 by omega), List.map_append, List.mem_append]
      right; decide
    · rw [hflat]; exact hcod
    · rw [hflat]
      have := crun_coding false hcod []
      rw [List.append_nil, hcs] at this
      exact this

example : readerEnd [(b!"hel", none), ([], none), (b!"lo", some .eof)] = .eof ∧
    readerData [(b!"hel", none), ([], none), (b!"lo", some .eof)] = b!"hello" ∧
    sentBytes ((Serializer.new 16 []).write Fold.ascii Proto.HTTP11 sampleReq
      (({} : Fields).attachment (some [(b!"hel", none), ([], none), (b!"lo", some .eof)]) 0) {}) =
    b!"HTTP/1.1 200 OK\r\nContent-Type: text/html\r\nTransfer-Encoding: chunked\r\n\r\n3\r\nhel\r\n2\r\nlo\r\n0\r\n\r\n" := by
  decide

/-- C29: if the reader fails, no terminating chunk is written and the connection is closed; if a write fails, what
has been written is a prefix of the complete coding. In any case nothing panics, and a successful end means the
coding is complete. -/
theorem C29_chunked_failures_partial (F : Fold) (n : Int) (hn : n < 16 ^ 8) {defaults : List (Bytes × Bytes)}
    (hd : DefaultsOK F defaults) (history : List Sent) (p : Proto) (req : Request) (hm : req.Method ≠ .HEAD)
    {f : Fields} {r : Reader} (ha : f.Attachment.content = some r) (hs : f.Attachment.size ≤ 0) (c : Client)
    (hhead : (c.write []).1 = none) :
    let w := (serializerAfter F n defaults history).write F p req f c
    w.out ≠ .panic ∧ (readerEnd r ≠ .eof → w.out = .done (some (.http Status.ErrCloseConnection))) ∧
    ∃ head body rest chunks, w.client.written.flatten = c.written.flatten ++ head ++ body ∧
      ChunkedCoding chunks (body ++ rest) ∧ chunks.flatten = readerData r ∧
      (w.out = .done none → rest = []) ∧ (readerEnd r ≠ .eof → rest ≠ []) := by
  have hr := ready_after n hd.distinct history
  generalize serializerAfter F n defaults history = d at hr
  have hmem := mem_ready hr
  have hw1 : (c.write (attachText F d p f)).2.written = c.written ++ [attachText F d p f] := rfl
  have hok : (c.write (attachText F d p f)).1 = none := hhead
  rw [write_attachment F d p req f c r ha]
  simp only
  cases hw : c.write (attachText F d p f) with
  | mk e c1 =>
    rw [hw] at hok hw1
    simp only at hok hw1
    subst hok
    simp only [if_neg hm, stream, if_neg (show ¬ f.Attachment.size > 0 by omega)]
    generalize (if d.fileBuff.length = 0 then List.replicate d.fileBuffSize 0 else d.fileBuff) = mem at hmem
    have h16 : 16 ≤ mem.length ∧ mem.length < 16 ^ 8 := by rw [hmem]; split <;> omega
    obtain ⟨chunks, hcs, hne, hst⟩ := writeChunkedBody_spec (readerSize r) mem r c1 (Nat.le_refl _) h16.1 h16.2
    obtain ⟨ws, hws, ⟨more, hpre⟩, hdone, _⟩ := hst.written
    have hcod := frames_coding chunks hne
    have hfl : ws.flatten ++ (more.flatten ++ (if readerEnd r = .eof then [] else b!"0\r\n\r\n")) =
        chunks.flatMap frame ++ b!"0\r\n\r\n" := by
      have := congrArg List.flatten hpre
      simp only [List.flatten_append, fullChunked] at this
      rw [← List.append_assoc, this]
      split <;> simp [List.flatMap]
    refine ⟨hst.panic, ?_, attachText F d p f, ws.flatten,
      more.flatten ++ (if readerEnd r = .eof then [] else b!"0\r\n\r\n"), chunks, by rw [hws, hw1]; simp, ?_, hcs, ?_, ?_⟩
    · intro he; exact writeChunkedBody_err _ _ _ _ (Nat.le_refl _) h16.1 h16.2 he
    · rw [hfl]; exact hcod
    · intro ho
      obtain ⟨h1, h2⟩ := hdone ho
      rw [h1] at hpre
      have : more = [] := by
        have := congrArg List.length hpre; simp at this; exact this
      simp [this, h2]
    · intro he; simp [he]

/-- C29 is false of the code for file buffers of more than 4 GiB: a read of 2^32 bytes panics, as the chunk size
does not fit into its place. -/
theorem C29_huge_buffer_violation (data : Bytes) (h : data.length = 16 ^ 8) (c : Client) (mem : Bytes)
    (hm : mem.length = 16 ^ 8 + 12) :
    (writeChunkedBody (readerSize [(data, none)]) mem [(data, none)] c).1 = .panic := by
  have hr : Reader.read (mem.length - 2 - 10) [(data, none)] = ((data, none), []) := by
    simp only [Reader.read]; rw [if_pos (by omega)]
  have hs : readerSize [(data, none)] = (data.length + 1) + 1 := by simp [readerSize]
  rw [hs]
  simp only [writeChunkedBody, hr]
  rw [if_pos (by omega)]
  have : chunkFrame (copyAt mem 10 data) data.length = none := by
    unfold chunkFrame
    simp only
    rw [if_pos (by have := hexBytes_length_ge 8 data.length (by omega); omega)]
  rw [this]

/-! ### C30 -/

/-- C30 is false of the code: data which a reader returns together with `io.EOF` (as the contract of `io.Reader`
permits) are dropped. -/
theorem C30_data_with_eof_violation :
    let w := (Serializer.new 16 []).write Fold.ascii Proto.HTTP11 sampleReq
      (({} : Fields).attachment (some [(b!"hel", none), (b!"lo", some .eof)]) 5) {}
    w.out = .done none ∧ ∃ m, readMsg (sentBytes w) = some m ∧ (b!"Content-Length", b!"5") ∈ m.fields ∧
      m.rest = b!"hel" :=
  ⟨by decide, _, rfl, by decide⟩

/-- C30, for readers which return their end on its own: the bytes after the head, which announces the size, are
exactly the data of the reader, whatever the sizes of the reads. -/
theorem C30_sized_attachment_partial (F : Fold) (n : Int) {defaults : List (Bytes × Bytes)}
    (hd : DefaultsOK F defaults) (history : List Sent) (p : Proto) {version : Bytes} (hp : versionName p = some version)
    (req : Request) (hm : req.Method ≠ .HEAD) {f : Fields} (hf : ResponseClean f) {r : Reader}
    (ha : f.Attachment.content = some r) (hs : f.Attachment.size > 0) (hend : readerEnd r = .eof)
    (halone : EndsAlone r) (c : Client) (hc : NoWriteError c) :
    let w := (serializerAfter F n defaults history).write F p req f c
    w.out = .done none ∧ ∃ head m, w.client.written.flatten = c.written.flatten ++ head ++ readerData r ∧
      readMsg head = some m ∧ m.rest = [] ∧
      ∃ v, (b!"Content-Length", v) ∈ m.fields ∧ readDecimal v = some f.Attachment.size.toNat := by
  have hr := ready_after n hd.distinct history
  generalize serializerAfter F n defaults history = d at hr
  obtain ⟨hpp, hv⟩ := version_some hp
  have hread := read_attach F hd (headersSet history) hf hpp []
  have hmem := mem_ready hr
  have hw1 : (c.write (attachText F d p f)).2.written = c.written ++ [attachText F d p f] := rfl
  obtain ⟨hok, hno⟩ := write_noError hc (attachText F d p f)
  rw [write_attachment F d p req f c r ha]
  simp only
  cases hw : c.write (attachText F d p f) with
  | mk e c1 =>
    rw [hw] at hok hno hw1
    simp only at hok hno hw1
    subst hok
    simp only [if_neg hm, stream, if_pos hs]
    generalize (if d.fileBuff.length = 0 then List.replicate d.fileBuffSize 0 else d.fileBuff) = mem at hmem
    have h16 : 1 ≤ mem.length := by rw [hmem]; split <;> omega
    obtain ⟨parts, hps, hst⟩ := writePlainBody_spec (readerSize r) mem r c1 (Nat.le_refl _) h16 halone
    obtain ⟨ws, hws, _, _, hfull⟩ := hst.written
    have hfull := hfull hno
    refine ⟨by rw [(hst.out hno).1, hend]; simp [endOut], attachText F d p f, _, ?_, (by
      unfold attachText
      rw [hr.buff, hr.defaults, List.nil_append, ← hread, List.append_nil]), rfl,
      decBytes f.Attachment.size.toNat, ?_, readDecimal_decBytes _⟩
    · rw [hws, hw1, hfull, ← hps]; simp
    · simp only [attachmentFields, if_pos hs, List.map_append, List.mem_append]
      right; right
      have hst : stripOWS (decBytes f.Attachment.size.toNat) = decBytes f.Attachment.size.toNat := stripOWS_decBytes _
      simp [hst]

example : EndsAlone [(b!"hel", none), (b!"lo", none), ([], some .eof)] ∧
    readerEnd [(b!"hel", none), (b!"lo", none), ([], some .eof)] = .eof ∧
    NoWriteError { wscript := [none, none] } := by
  refine ⟨by simp [EndsAlone], by decide, by simp [NoWriteError]⟩

/-! ### C31 -/

/-- C31, for responses without an attachment on connections which are not being upgraded: the connection is kept
exactly when the protocol says so, and in any case the whole response has been written by then. -/
theorem C31_keep_alive_partial (F : Fold) (d : Serializer) (p : Proto) (req : Request)
    (hcon : ∀ c ∈ req.Connection, isPlainTok c = true) (hup : req.Upgrade = Proto.Unknown)
    (f : Fields) (ha : f.Attachment.content = none) (c : Client) (hc : NoWriteError c) :
    let w := d.write F p req f c
    w.out = .done (if persists p req.Connection then none else some (.http Status.ErrCloseConnection)) ∧
    ∃ text, w.client.written = c.written ++ [text] := by
  rw [write_plain F d p req f c ha]
  refine ⟨?_, _, rfl⟩
  have hw := (write_noError hc (d.buff ++ Proto.toBytes p ++ plainHead F d.defaultHeaders f ++
    (if req.Method ≠ .HEAD then f.Body else []))).1
  have hk : isKeepAlive F p req.Connection = persists p req.Connection := by
    unfold isKeepAlive persists
    have e1 : F.eq req.Connection b!"keep-alive" = (lower req.Connection == b!"keep-alive") := by
      rw [Bool.eq_iff_iff, F.eq_iff_lower hcon (by decide), show lower b!"keep-alive" = b!"keep-alive" by decide]; simp
    have e2 : F.eq req.Connection b!"close" = (lower req.Connection == b!"close") := by
      rw [Bool.eq_iff_iff, F.eq_iff_lower hcon (by decide), show lower b!"close" = b!"close" by decide]; simp
    rw [e1, e2]
    by_cases h10 : p = Proto.HTTP10
    · subst h10; simp [Proto.HTTP10, Proto.HTTP11]
    · by_cases h11 : p = Proto.HTTP11
      · subst h11; simp [Proto.HTTP10, Proto.HTTP11, bne]
      · simp [h10, h11]
  simp only [hk, hup, hw]
  cases persists p req.Connection <;> simp

example : persists Proto.HTTP11 b!"" = true ∧ persists Proto.HTTP11 b!"Close" = false ∧
    persists Proto.HTTP10 b!"" = false ∧ persists Proto.HTTP10 b!"Keep-Alive" = true ∧ persists Proto.HTTP2 b!"" = false := by
  decide

/-- C31, exactly: after a response without an attachment the connection is kept if and only if the protocol says so or the
request has an Upgrade header naming a protocol the server knows. For a response with an attachment nothing the client says about the connection
makes a difference. Missing: C31 wants neither exception. -/
theorem C31_kept_iff_partial (F : Fold) (d : Serializer) (p : Proto) (req : Request)
    (hcon : ∀ c ∈ req.Connection, isPlainTok c = true) (f : Fields) (c : Client) (hc : NoWriteError c) :
    (f.Attachment.content = none →
      ((d.write F p req f c).out = .done none ↔ persists p req.Connection = true ∨ req.Upgrade ≠ Proto.Unknown) ∧
      ((d.write F p req f c).out ≠ .done none → (d.write F p req f c).out = .done (some (.http Status.ErrCloseConnection)))) ∧
    (f.Attachment.content ≠ none → ∀ connection upgrade,
      (d.write F p { req with Connection := connection, Upgrade := upgrade } f c) = d.write F p req f c) := by
  constructor
  · intro ha
    by_cases hup : req.Upgrade = Proto.Unknown
    · have := (C31_keep_alive_partial F d p req hcon hup f ha c hc).1
      rw [this]
      cases persists p req.Connection <;> simp [hup]
    · rw [write_plain F d p req f c ha]
      have hw := (write_noError hc (d.buff ++ Proto.toBytes p ++ plainHead F d.defaultHeaders f ++
        (if req.Method ≠ .HEAD then f.Body else []))).1
      simp only [hup, and_false, if_false, hw]
      simpa using Or.inr hup
  · intro ha connection upgrade
    unfold Serializer.write
    dsimp only
    cases h : f.Attachment.content with
    | none => exact absurd h ha
    | some r => rfl

/-- C31 is false of the code for attachments: the connection is kept after one, although the client asked for it
to be closed. -/
theorem C31_attachment_violation :
    let w := (Serializer.new 16 []).write Fold.ascii Proto.HTTP11 { sampleReq with Connection := b!"close" }
      (({} : Fields).attachment (some [(b!"x", none)]) 1) {}
    persists Proto.HTTP11 b!"close" = false ∧ w.out = .done none := by decide

/-- C31 is false of the code for requests with an Upgrade header: the connection is kept although the client asked
for it to be closed. -/
theorem C31_upgrade_violation :
    let w := (Serializer.new 16 []).write Fold.ascii Proto.HTTP11
      { sampleReq with Connection := b!"close", Upgrade := Proto.HTTP11 } {} {}
    w.out = .done none := by decide

/-! ### C34 -/

/-- C34 is false of the code: the attribute is called `Max-Age`, but `MaxAge` is written, which clients ignore. -/
theorem C34_max_age_violation :
    let w := (Serializer.new 16 []).write Fold.ascii Proto.HTTP11 sampleReq
      { Cookies := [{ Name := b!"a", Value := b!"b", MaxAge := 60 }] } {}
    ∃ m, readMsg (sentBytes w) = some m ∧ (b!"Set-Cookie", b!"a=b; MaxAge=60") ∈ m.fields ∧
      (b!"Max-Age", some b!"60") ∉ readSetCookie b!"a=b; MaxAge=60" :=
  ⟨_, rfl, by decide⟩

/-- C34, for cookies without Max-Age: every cookie of the response gets a Set-Cookie field of its own, in order,
from which an independent reader recovers name, value and exactly the attributes which are set. -/
theorem C34_set_cookie_partial (F : Fold) (n : Int) {defaults : List (Bytes × Bytes)}
    (hd : DefaultsOK F defaults) (history : List Sent) (p : Proto) {version : Bytes} (hp : versionName p = some version)
    (req : Request) (hm : req.Method ≠ .HEAD) {f : Fields} (hf : ResponseClean f) (ha : f.Attachment.content = none)
    (hc : ∀ c ∈ f.Cookies, CookieOK c ∧ c.MaxAge = 0)
    (hh : ∀ h ∈ f.Headers, h.Key ≠ b!"Set-Cookie") (hdef : ∀ kv ∈ defaults, kv.1 ≠ b!"Set-Cookie")
    (c : Client) :
    ∃ text m, ((serializerAfter F n defaults history).write F p req f c).client.written = c.written ++ [text] ∧
      readMsg text = some m ∧
      (m.fields.filter (fun kv => kv.1 == b!"Set-Cookie")).map (fun kv => readSetCookie kv.2) =
        f.Cookies.map (fun c => (c.Name, some c.Value) :: cookieAttrs c) := by
  obtain ⟨text, h1, h2⟩ := C25_response_readable_partial F n hd history p hp req hm hf ha c
  refine ⟨text, _, h1, h2, ?_⟩
  simp only [expectedFields, List.map_append, List.filter_append]
  have t1 : ((f.Headers.map (fun h => (h.Key, h.Value))).map (fun kv => (kv.1, stripOWS kv.2))).filter
      (fun kv => kv.1 == b!"Set-Cookie") = [] := by
    rw [List.filter_eq_nil_iff]
    intro x hx
    simp only [List.mem_map] at hx
    obtain ⟨_, ⟨h, hm, rfl⟩, rfl⟩ := hx
    simpa using hh h hm
  have t2 : ((defaults.filter (fun d => !(headersSet history ++ f.Headers).any (fun h => F.eq d.1 h.Key))).map
      (fun kv => (kv.1, stripOWS kv.2))).filter (fun kv => kv.1 == b!"Set-Cookie") = [] := by
    rw [List.filter_eq_nil_iff]
    intro x hx
    simp only [List.mem_map, List.mem_filter] at hx
    obtain ⟨d, ⟨hm, _⟩, rfl⟩ := hx
    simpa using hdef d hm
  have t3 : ([(b!"Content-Type", f.ContentType)].map (fun kv => (kv.1, stripOWS kv.2))).filter
      (fun kv => kv.1 == b!"Set-Cookie") = [] := by simp
  have t4 : ((if f.TransferEncoding = [] then [] else [(b!"Transfer-Encoding", f.TransferEncoding)]).map
      (fun kv => (kv.1, stripOWS kv.2))).filter (fun kv => kv.1 == b!"Set-Cookie") = [] := by split <;> simp
  have t5 : ([(b!"Content-Length", decBytes f.Body.length)].map (fun kv => (kv.1, stripOWS kv.2))).filter
      (fun kv => kv.1 == b!"Set-Cookie") = [] := by simp
  rw [t1, t2, t3, t4, t5]
  simp only [List.map_nil, List.nil_append, List.append_nil]
  have t6 : ((f.Cookies.map (fun c => (b!"Set-Cookie", setCookieValue c))).map (fun kv => (kv.1, stripOWS kv.2))).filter
      (fun kv => kv.1 == b!"Set-Cookie") = f.Cookies.map (fun c => (b!"Set-Cookie", stripOWS (setCookieValue c))) := by
    rw [List.filter_eq_self.2]
    · simp
    · intro x hx
      simp only [List.mem_map] at hx
      obtain ⟨_, ⟨_, _, rfl⟩, rfl⟩ := hx
      rfl
  rw [t6, List.map_map]
  apply List.map_congr_left
  intro ck hck
  obtain ⟨hok, hage⟩ := hc ck hck
  exact setCookie_read hok hage

example : CookieOK { Name := b!"sid", Value := b!"a b=c", Path := b!"/x", Expires := some b!"Thu, 01 Jan 1970 00:00:00 GMT", HttpOnly := true } ∧
    readSetCookie b!"sid=a b=c; Path=/x; Expires=Thu, 01 Jan 1970 00:00:00 GMT; HttpOnly" =
      [(b!"sid", some b!"a b=c"), (b!"Path", some b!"/x"), (b!"Expires", some b!"Thu, 01 Jan 1970 00:00:00 GMT"),
       (b!"HttpOnly", none)] := by
  refine ⟨⟨?_, ?_, ?_, ?_, ?_, ?_⟩, by decide⟩
  · simp [CookieText]; decide
  · simp [CookieText]; decide
  · simp [CookieText]; decide
  · simp [CookieText]
  · simp [CookieText]; decide
  · simp [CookieText]

/-! ### C51 -/

/-- C51 (all codes, unless a custom reason phrase is set, and except 101): the status line has exactly this code,
and the registered reason phrase if there is one. -/
theorem C51_status_line_partial (F : Fold) (n : Int) {defaults : List (Bytes × Bytes)}
    (hd : DefaultsOK F defaults) (history : List Sent) (p : Proto) {version : Bytes} (hp : versionName p = some version)
    (req : Request) (hm : req.Method ≠ .HEAD) {f : Fields} (hf : ResponseClean f) (ha : f.Attachment.content = none)
    (hs : f.Status = []) (h101 : f.Code ≠ 101) (c : Client) :
    ∃ text m, ((serializerAfter F n defaults history).write F p req f c).client.written = c.written ++ [text] ∧
      readMsg text = some m ∧ m.code = f.Code ∧ m.reason = (phrase f.Code).getD b!"Unknown Status Code" := by
  obtain ⟨text, h1, h2⟩ := C25_response_readable_partial F n hd history p hp req hm hf ha c
  refine ⟨text, _, h1, h2, rfl, ?_⟩
  simp only [reasonFor, hs, h101, and_false, if_false]
  exact text_phrase f.Code

/-- C51 is false of the code: a custom reason phrase is ignored. -/
theorem C51_custom_phrase_violation :
    let w := (Serializer.new 16 []).write Fold.ascii Proto.HTTP11 sampleReq (({} : Fields).status b!"Fine") {}
    ∃ m, readMsg (sentBytes w) = some m ∧ m.reason = b!"OK" := ⟨_, rfl, by decide⟩

/-- C51 is false of the code: the reason phrase of 101 lacks a letter. -/
theorem C51_101_violation :
    let w := (Serializer.new 16 []).write Fold.ascii Proto.HTTP11 sampleReq (({} : Fields).code 101) {}
    ∃ m, readMsg (sentBytes w) = some m ∧ m.reason = b!"Switching Protocol" ∧
      phrase 101 = some b!"Switching Protocols" := ⟨_, rfl, by decide⟩

example : phrase 404 = some b!"Not Found" ∧ phrase 599 = none := by decide

end Indigo.Props
