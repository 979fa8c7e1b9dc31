/-
The serializer over a history of responses; responses with attachments.
-/
import Verif.Proofs.Stream
import Verif.Spec.Exchange

namespace Indigo.Serializer
open Indigo.Spec

/-- What holds of the serializer between two responses. -/
structure Ready (F : Fold) (n : Int) (defs : List (Bytes × Bytes)) (earlier : List Pair) (d : Serializer) : Prop where
  buff : d.buff = []
  defaults : d.defaultHeaders = defaultsAfter F defs earlier
  size : d.fileBuffSize = (if n < 16 then 16 else n.toNat)
  mem : d.fileBuff.length = 0 ∨ d.fileBuff.length = d.fileBuffSize

/-- The text of the head of a response with attachment, without the protocol. -/
def attachHead (F : Fold) (ds : List DefaultHeader) (f : Fields) : Bytes :=
  statusText f ++
  (if f.Attachment.size > 0 then
    headersText F ds f ++ fieldLine (b!"Content-Length", decBytes f.Attachment.size.toNat)
   else headersText F ds (f.transferEncoding b!"chunked")) ++ [13, 10]

theorem intBytes_pos {n : Int} (h : n > 0) : intBytes n = decBytes n.toNat := by
  conv => lhs; rw [show n = ((n.toNat : Nat) : Int) by omega]
  exact intBytes_nat _

theorem attachmentHead_eq (F : Fold) (d : Serializer) (f : Fields) :
    attachmentHead F (d.renderResponseLine f) f =
      { d with buff := d.buff ++ attachHead F d.defaultHeaders f,
               defaultHeaders := excludeAll F f.Headers d.defaultHeaders } := by
  unfold attachmentHead attachHead
  by_cases h : f.Attachment.size > 0
  · simp [h, renderHeaders_eq, renderResponseLine_eq, renderContentLength, put, intBytes_pos h, fieldLine]
  · simp [h, renderHeaders_eq, renderResponseLine_eq, put, Fields.transferEncoding]

/-- The whole head of a response with attachment. -/
def attachText (F : Fold) (d : Serializer) (p : Proto) (f : Fields) : Bytes :=
  d.buff ++ Proto.toBytes p ++ attachHead F d.defaultHeaders f

theorem write_attachment (F : Fold) (d : Serializer) (p : Proto) (req : Request) (f : Fields) (c : Client) (r : Reader)
    (h : f.Attachment.content = some r) :
    write F d p req f c =
      (let d' : Serializer := { d with buff := [], defaultHeaders := excludeAll F f.Headers d.defaultHeaders }
       match c.write (attachText F d p f) with
       | (some _, c) => { out := errClose, ser := d', client := c }
       | (none, c) =>
         if req.Method = .HEAD then { out := .done none, ser := d', client := c }
         else stream f.Attachment.size r d' c) := by
  unfold write
  simp only [h]
  unfold sendAttachment
  simp only [attachmentHead_eq]
  have e : (d.renderProtocol p).buff ++ attachHead F (d.renderProtocol p).defaultHeaders f = attachText F d p f := by
    simp [renderProtocol, put, attachText]
  rw [e]
  match c.write (attachText F d p f) with
  | (some _, c1) => simp [clear, reset, renderProtocol, put]
  | (none, c1) =>
    by_cases hm : req.Method = .HEAD
    · simp [hm, clear, reset, renderProtocol, put]
    · simp [hm, clear, reset, stream, renderProtocol, put]

theorem mem_ready {F : Fold} {n : Int} {defs earlier} {d : Serializer} (h : Ready F n defs earlier d) :
    (if d.fileBuff.length = 0 then List.replicate d.fileBuffSize 0 else d.fileBuff).length =
      (if n < 16 then 16 else n.toNat) := by
  rcases h.mem with hm | hm
  · simp [hm, h.size]
  · have := h.size
    by_cases h0 : d.fileBuff.length = 0
    · simp [h0, h.size]
    · rw [if_neg h0, hm, h.size]

/-- Streaming keeps the buffer size, whatever happens. -/
theorem writePlainBody_mem : ∀ (fuel : Nat) (mem : Bytes) (r : Reader) (c : Client),
    (writePlainBody fuel mem r c).2.1.length = mem.length := by
  intro fuel
  induction fuel with
  | zero => intros; rfl
  | succ fuel ih =>
    intro mem r c
    obtain ⟨⟨d, err⟩, r', hr⟩ : ∃ de r', Reader.read mem.length r = (de, r') := ⟨_, _, rfl⟩
    have hd := (read_spec r d err r' hr).1
    have hml : (copyAt mem 0 d).length = mem.length := copyAt_length (by omega)
    simp only [writePlainBody, hr]
    cases err with
    | none =>
      simp only
      cases hw : c.write (slice (copyAt mem 0 d) 0 d.length) with
      | mk e c1 =>
        cases e with
        | none => simp only [ih, hml]
        | some x => simp only [hml]
    | some x => cases x <;> simp only [hml]

theorem chunkFrame_mem {mem mem' frame : Bytes} {n : Nat} (hm : n + 12 ≤ mem.length)
    (h : chunkFrame mem n = some (mem', frame)) : mem'.length = mem.length := by
  unfold chunkFrame at h
  simp only at h
  split at h
  · simp at h
  · rename_i hlen
    have hlen : (hexBytes n).length ≤ 8 := by omega
    simp only [Option.some.injEq, Prod.mk.injEq] at h
    rw [← h.1]
    have l1 : (copyAt mem 0 (hexBytes n)).length = mem.length := copyAt_length (by omega)
    have ls : (slice (copyAt mem 0 (hexBytes n)) 0 (hexBytes n).length).length ≤ (hexBytes n).length := by
      simp [slice]; omega
    have l2 : (copyAt (copyAt mem 0 (hexBytes n)) (8 - (hexBytes n).length)
        (slice (copyAt mem 0 (hexBytes n)) 0 (hexBytes n).length)).length = mem.length := by
      rw [copyAt_length (by omega), l1]
    have l3 : (copyAt (copyAt (copyAt mem 0 (hexBytes n)) (8 - (hexBytes n).length)
        (slice (copyAt mem 0 (hexBytes n)) 0 (hexBytes n).length)) 8 crlf).length = mem.length := by
      rw [copyAt_length (by rw [l2]; simp; omega), l2]
    rw [copyAt_length (by rw [l3]; simp; omega), l3]

theorem writeChunkedBody_mem : ∀ (fuel : Nat) (mem : Bytes) (r : Reader) (c : Client), 16 ≤ mem.length →
    (writeChunkedBody fuel mem r c).2.1.length = mem.length := by
  intro fuel
  induction fuel with
  | zero => intros; rfl
  | succ fuel ih =>
    intro mem r c hm
    obtain ⟨⟨d, err⟩, r', hr⟩ : ∃ de r', Reader.read (mem.length - 2 - 10) r = (de, r') := ⟨_, _, rfl⟩
    have hd := (read_spec r d err r' hr).1
    have hml : (copyAt mem 10 d).length = mem.length := copyAt_length (by omega)
    simp only [writeChunkedBody, hr]
    split
    · cases hf : chunkFrame (copyAt mem 10 d) d.length with
      | none => simp only [hml]
      | some mf =>
        obtain ⟨mem', frame⟩ := mf
        have hl := chunkFrame_mem (by omega) hf
        simp only
        cases hw : c.write frame with
        | mk e c1 =>
          cases e with
          | some x => simp only; omega
          | none =>
            simp only
            cases chunkEnd c1 err with
            | some oc => simp only; omega
            | none => simp only; rw [ih _ _ _ (by omega)]; omega
    · cases chunkEnd c err with
      | some oc => simp only; omega
      | none => simp only; rw [ih _ _ _ (by omega)]; omega

theorem ready_write {F : Fold} {n : Int} {defs : List (Bytes × Bytes)} {earlier : List Pair} {d : Serializer}
    (hd : defs.Pairwise (fun a b => F.eq a.1 b.1 = false)) (h : Ready F n defs earlier d)
    (p : Proto) (req : Request) (f : Fields) (c : Client) :
    Ready F n defs (earlier ++ f.Headers) (write F d p req f c).ser := by
  have hx : excludeAll F f.Headers d.defaultHeaders = defaultsAfter F defs (earlier ++ f.Headers) := by
    rw [h.defaults, excludeAll_after F hd]
  cases ha : f.Attachment.content with
  | none =>
    rw [write_plain F d p req f c ha]
    exact ⟨rfl, hx, h.size, h.mem⟩
  | some r =>
    rw [write_attachment F d p req f c r ha]
    simp only
    cases hw : c.write (attachText F d p f) with
    | mk e c1 =>
      cases e with
      | some x => exact ⟨rfl, hx, h.size, h.mem⟩
      | none =>
        simp only
        split
        · exact ⟨rfl, hx, h.size, h.mem⟩
        · refine ⟨rfl, hx, h.size, Or.inr ?_⟩
          have hm := mem_ready h
          have hs := h.size
          simp only [stream]
          generalize (if d.fileBuff.length = 0 then List.replicate d.fileBuffSize 0 else d.fileBuff) = mem at hm
          have h16 : 16 ≤ mem.length := by rw [hm]; split <;> omega
          split
          · rw [writePlainBody_mem, hm, hs]
          · rw [writeChunkedBody_mem _ _ _ _ h16, hm, hs]

theorem ready_after {F : Fold} (n : Int) {defs : List (Bytes × Bytes)}
    (hd : defs.Pairwise (fun a b => F.eq a.1 b.1 = false)) (history : List Sent) :
    Ready F n defs (headersSet history) (serializerAfter F n defs history) := by
  have key : ∀ (history : List Sent) (d : Serializer) (earlier : List Pair), Ready F n defs earlier d →
      Ready F n defs (earlier ++ headersSet history)
        (history.foldl (fun d s => (d.write F s.proto s.req s.response s.conn).ser) d) := by
    intro history
    induction history with
    | nil => intro d earlier h; simpa [headersSet] using h
    | cons s history ih =>
      intro d earlier h
      have := ih _ _ (ready_write hd h s.proto s.req s.response s.conn)
      simpa [headersSet] using this
  have h0 : Ready F n defs [] (new n defs) := by
    refine ⟨rfl, ?_, rfl, Or.inl rfl⟩
    simp [new, processDefaultHeaders_eq, defaultsAfter]
  have := key history _ [] h0
  unfold serializerAfter
  simpa using this

/-! ### Reading the head of a response with attachment -/

theorem attachHead_after (F : Fold) {defs : List (Bytes × Bytes)}
    (hd : defs.Pairwise (fun a b => F.eq a.1 b.1 = false)) (earlier : List Pair) (f : Fields) :
    attachHead F (defaultsAfter F defs earlier) f =
      statusText f ++ (attachmentFields F defs earlier f).flatMap fieldLine ++ [13, 10] := by
  unfold attachHead headersText attachmentFields Fields.transferEncoding
  simp only [excludeAll_after F hd, defaultsText_after]
  by_cases hs : f.Attachment.size > 0
  · by_cases h : f.TransferEncoding = []
    · simp [h, hs, List.flatMap_map]
    · simp [h, hs, List.flatMap_map]
  · simp [hs, List.flatMap_map]

theorem attachmentFields_ok (F : Fold) {defs : List (Bytes × Bytes)} (hd : DefaultsOK F defs) (earlier : List Pair)
    {f : Fields} (hf : ResponseClean f) : ∀ kv ∈ attachmentFields F defs earlier f, NameOK kv.1 ∧ NoBreak kv.2 := by
  intro kv hkv
  have lit : ∀ k : Bytes, (13 ∉ k ∧ 10 ∉ k) ∧ 58 ∉ k → NameOK k := fun k h => h
  unfold attachmentFields at hkv
  simp only [List.mem_append, List.mem_map, List.mem_filter, List.mem_cons, List.mem_nil_iff, or_false] at hkv
  rcases hkv with ((⟨h, hm, rfl⟩ | ⟨hm, _⟩) | rfl) | hm
  · exact hf.headers h hm
  · exact hd.clean kv hm
  · exact ⟨lit _ (by simp), hf.contentType⟩
  · split at hm
    · simp only [List.mem_append, List.mem_cons, List.mem_nil_iff, or_false] at hm
      rcases hm with hm | rfl
      · split at hm
        · simp at hm
        · simp at hm; subst hm; exact ⟨lit _ (by simp), hf.transferEncoding⟩
      · refine ⟨lit _ (by simp), ?_⟩
        have := decBytes_digits f.Attachment.size.toNat
        exact ⟨fun h => by have := (this 13 h).1; simp at this, fun h => by have := (this 10 h).1; simp at this⟩
    · simp at hm; subst hm
      exact ⟨lit _ (by simp), by simp [NoBreak]⟩

theorem read_attach (F : Fold) {defs : List (Bytes × Bytes)} (hd : DefaultsOK F defs) (earlier : List Pair)
    {f : Fields} (hf : ResponseClean f) {p : Proto} (hp : p = Proto.HTTP10 ∨ p = Proto.HTTP11 ∨ p = Proto.HTTP2)
    (body : Bytes) :
    readMsg (Proto.toBytes p ++ attachHead F (defaultsAfter F defs earlier) f ++ body) =
      some { version := (Proto.toBytes p).dropLast, code := f.Code, reason := reasonFor f,
             fields := (attachmentFields F defs earlier f).map (fun kv => (kv.1, stripOWS kv.2)), rest := body } := by
  obtain ⟨v, h1, h2, h3, h4⟩ := proto_text hp
  have := readMsg_render (rest := body) (code := f.Code) h2 h3 h4 (reason_clean f) (attachmentFields_ok F hd earlier hf)
  rw [attachHead_after F hd.distinct, h1]
  simp only [List.dropLast_concat]
  rw [← this]
  congr 1
  simp [statusText]

theorem version_some {p : Proto} {v : Bytes} (h : versionName p = some v) :
    (p = Proto.HTTP10 ∨ p = Proto.HTTP11 ∨ p = Proto.HTTP2) ∧ (Proto.toBytes p).dropLast = v := by
  unfold versionName at h
  split at h
  · rename_i hp; subst hp; simp at h; subst h; exact ⟨Or.inl rfl, by decide⟩
  · split at h
    · rename_i hp; subst hp; simp at h; subst h; exact ⟨Or.inr (Or.inl rfl), by decide⟩
    · split at h
      · rename_i hp; subst hp; simp at h; subst h; exact ⟨Or.inr (Or.inr rfl), by decide⟩
      · simp at h

end Indigo.Serializer

namespace Indigo.Serializer
open Indigo.Spec

/-! ### What is written is only added to -/

theorem write_prefix {c c' : Client} {b : Bytes} {e : Option GoErr} (h : c.write b = (e, c')) :
    c.written <+: c'.written := by
  have : (c.write b).2.written = c'.written := by rw [h]
  rw [← this]; exact List.prefix_append _ _

theorem writePlainBody_prefix : ∀ (fuel : Nat) (mem : Bytes) (r : Reader) (c : Client),
    c.written <+: (writePlainBody fuel mem r c).2.2.written := by
  intro fuel
  induction fuel with
  | zero => intros; exact List.prefix_refl _
  | succ fuel ih =>
    intro mem r c
    simp only [writePlainBody]
    split
    · split
      · rename_i hw
        exact (write_prefix hw).trans (ih _ _ _)
      · rename_i hw
        exact write_prefix hw
    · exact List.prefix_refl _
    · exact List.prefix_refl _

theorem chunkEnd_prefix {c : Client} {e : Option GoErr} {o : WOut} {c' : Client} (h : chunkEnd c e = some (o, c')) :
    c.written <+: c'.written := by
  cases e with
  | none => simp [chunkEnd] at h
  | some x =>
    cases x <;> simp [chunkEnd] at h
    · rw [← h.2]; exact List.prefix_refl _
    · rw [← h.2]; exact List.prefix_append _ _
    · rw [← h.2]; exact List.prefix_refl _

theorem writeChunkedBody_prefix : ∀ (fuel : Nat) (mem : Bytes) (r : Reader) (c : Client),
    c.written <+: (writeChunkedBody fuel mem r c).2.2.written := by
  intro fuel
  induction fuel with
  | zero => intros; exact List.prefix_refl _
  | succ fuel ih =>
    intro mem r c
    obtain ⟨⟨d, err⟩, r', hr⟩ : ∃ de r', Reader.read (mem.length - 2 - 10) r = (de, r') := ⟨_, _, rfl⟩
    simp only [writeChunkedBody, hr]
    split
    · cases hf : chunkFrame (copyAt mem 10 d) d.length with
      | none => exact List.prefix_refl _
      | some mf =>
        obtain ⟨mem', frame⟩ := mf
        simp only
        have hp : c.written <+: (c.write frame).2.written := List.prefix_append _ _
        cases hw : c.write frame with
        | mk e c1 =>
          rw [hw] at hp
          cases e with
          | some x => exact hp
          | none =>
            simp only
            cases hce : chunkEnd c1 err with
            | some oc => exact hp.trans (chunkEnd_prefix hce)
            | none => exact hp.trans (ih _ _ _)
    · cases hce : chunkEnd c err with
      | some oc => exact chunkEnd_prefix hce
      | none => exact ih _ _ _

/-- A failing reader (or a failing write before) closes the connection. -/
theorem writeChunkedBody_err : ∀ (fuel : Nat) (mem : Bytes) (r : Reader) (c : Client), readerSize r ≤ fuel →
    16 ≤ mem.length → (mem.length < 16 ^ 8) → readerEnd r ≠ .eof → (writeChunkedBody fuel mem r c).1 = errClose := by
  intro fuel
  induction fuel with
  | zero => intro mem r c h; unfold readerSize at h; omega
  | succ fuel ih =>
    intro mem r c hf hm hM he
    obtain ⟨⟨d, err⟩, r', hr⟩ : ∃ de r', Reader.read (mem.length - 2 - 10) r = (de, r') := ⟨_, _, rfl⟩
    obtain ⟨hd, hnone, hsome⟩ := read_spec r d err r' hr
    have hml : (copyAt mem 10 d).length = mem.length := copyAt_length (by omega)
    have hend : ∀ c1 x, err = some x → chunkEnd c1 err = some (errClose, c1) := by
      intro c1 x hx
      obtain ⟨_, e2, _⟩ := hsome x hx
      rw [hx]
      rw [e2] at he
      cases x <;> first | rfl | exact absurd rfl he
    simp only [writeChunkedBody, hr]
    by_cases hpos : d.length > 0
    · rw [if_pos hpos]
      obtain ⟨mem', hfr, hl'⟩ := chunkFrame_eq (mem := mem) (d := d) (by omega) (hexBytes_length 7 _ (by omega))
      rw [hfr]
      simp only
      cases hw : c.write (frame d) with
      | mk e c1 =>
        cases e with
        | some x => rfl
        | none =>
          simp only
          cases err with
          | some x => rw [hend c1 x rfl]
          | none =>
            obtain ⟨_, e2, e3, _⟩ := hnone rfl
            have := e3 (by omega)
            simp only [chunkEnd]
            exact ih _ _ _ (by omega) (by omega) (by omega) (by rw [← e2]; exact he)
    · rw [if_neg hpos]
      cases err with
      | some x => rw [hend c x rfl]
      | none =>
        obtain ⟨_, e2, e3, _⟩ := hnone rfl
        have := e3 (by omega)
        simp only [chunkEnd]
        exact ih _ _ _ (by omega) (by omega) (by omega) (by rw [← e2]; exact he)

theorem hexBytes_length_ge (k : Nat) : ∀ n, 16 ^ k ≤ n → k + 1 ≤ (hexBytes n).length := by
  induction k with
  | zero => intro n _; have := List.length_pos_iff.2 (hexBytes_ne n); omega
  | succ k ih =>
    intro n h
    have h16 : 16 ≤ n := by
      have : 16 ^ 1 ≤ 16 ^ (k + 1) := Nat.pow_le_pow_right (by omega) (by omega)
      omega
    rw [hexBytes_ge h16]
    have := ih (n / 16) (by rw [Nat.le_div_iff_mul_le (by omega)]; rw [Nat.pow_succ] at h; omega)
    simp; omega

theorem stripOWS_decBytes (n : Nat) : stripOWS (decBytes n) = decBytes n := by
  have hd := decBytes_digits n
  have hb : ∀ c : Byte, 48 ≤ c ∧ c ≤ 57 → isBlank c = false := by
    intro c
    exact byte_forall (P := fun c => 48 ≤ c ∧ c ≤ 57 → isBlank c = false) (by decide +kernel) c
  apply stripOWS_id
  · intro c hc
    exact hb c (hd c (List.mem_of_mem_head? hc))
  · intro c hc
    exact hb c (hd c (List.mem_of_getLast? hc))

theorem text_phrase (n : Nat) : Status.Text n = (phrase n).getD b!"Unknown Status Code" := by
  unfold Status.Text
  cases h : Status.textTable.lookup n with
  | some t =>
    have key : ∀ kv ∈ Status.textTable, kv.2 = (phrase kv.1).getD b!"Unknown Status Code" := by decide +kernel
    exact key _ (lookup_mem h)
  | none =>
    have : phrase n = none := by
      unfold phrase
      split
      all_goals first | rfl | (exfalso; revert h; decide)
    rw [this]; rfl


theorem getLast_append_ne {a b : Bytes} (h : b ≠ []) : (a ++ b).getLast? = b.getLast? := by
  cases hb : b.getLast? with
  | none => simp at hb; exact absurd hb h
  | some x => simp [List.getLast?_append, hb]

theorem joinSemi_ends : ∀ (ps : List Bytes), ps ≠ [] →
    (∀ p ∈ ps, p ≠ [] ∧ ∀ c, p.getLast? = some c → isBlank c = false) →
    joinSemi ps ≠ [] ∧ ∀ c, (joinSemi ps).getLast? = some c → isBlank c = false := by
  intro ps
  induction ps with
  | nil => intro h; exact absurd rfl h
  | cons p ps ih =>
    intro _ h
    cases ps with
    | nil => simpa [joinSemi] using h
    | cons q qs =>
      obtain ⟨h1, h2⟩ := ih (by simp) (fun p hp => h p (List.mem_cons_of_mem _ hp))
      refine ⟨by simp [joinSemi], ?_⟩
      simp only [joinSemi] at h1 h2 ⊢
      rw [getLast_append_ne h1]
      exact h2

theorem attr_ends {a : Bytes × Option Bytes} (h : AttrOK a) (hne : a.1 ≠ [] ∨ a.2 ≠ none) :
    renderAttr a ≠ [] ∧ (∀ c, (renderAttr a).getLast? = some c → isBlank c = false) ∧
    (∀ c, (renderAttr a).head? = some c → isBlank c = false) := by
  obtain ⟨k, v⟩ := a
  cases v with
  | none =>
    have hk : k ≠ [] := by simpa using hne
    exact ⟨hk, h.last rfl, h.head⟩
  | some w =>
    refine ⟨by simp [renderAttr], ?_, ?_⟩
    · simp only [renderAttr]
      rw [getLast_append_ne (by simp)]
      cases w with
      | nil => intro c hc; simp at hc; subst hc; decide
      | cons x xs =>
        intro c hc
        exact (h.value _ rfl).2 c (by simpa [List.getLast?_cons] using hc)
    · simp only [renderAttr]
      cases k with
      | nil => intro c hc; simp at hc; subst hc; decide
      | cons x xs => intro c hc; exact h.head c (by simpa using hc)

theorem setCookie_read {c : Cookie} (h : CookieOK c) (hage : c.MaxAge = 0) :
    readSetCookie (stripOWS (setCookieValue c)) = (c.Name, some c.Value) :: cookieAttrs c := by
  have hok := writtenAttrs_ok h
  have hw : writtenAttrs c = cookieAttrs c := by
    unfold writtenAttrs
    have : ∀ a ∈ cookieAttrs c, (if a.1 = b!"Max-Age" then (b!"MaxAge", a.2) else a) = a := by
      intro a ha
      rw [if_neg]
      unfold cookieAttrs at ha
      simp only [hage, if_true, List.append_nil, List.mem_append] at ha
      rcases ha with ((((ha | ha) | ha) | ha) | ha) | ha
      · split at ha <;> simp at ha; subst ha; simp
      · split at ha <;> simp at ha; subst ha; simp
      · split at ha <;> simp at ha; subst ha; simp
      · split at ha <;> simp at ha; subst ha; simp
      · split at ha <;> simp at ha; subst ha; simp
      · split at ha <;> simp at ha; subst ha; simp
    conv => rhs; rw [← List.map_id (cookieAttrs c)]
    exact List.map_congr_left this
  have hnn : ∀ a ∈ cookieAttrs c, a.1 ≠ [] := by
    intro a ha
    unfold cookieAttrs at ha
    simp only [List.mem_append] at ha
    rcases ha with (((((ha | ha) | ha) | ha) | ha) | ha) | ha <;>
      (split at ha <;> simp at ha <;> subst ha <;> simp)
  have hstrip : stripOWS (setCookieValue c) = setCookieValue c := by
    unfold setCookieValue
    apply stripOWS_id
    · have h0 := attr_ends (hok (c.Name, some c.Value) (by simp)) (Or.inr (by simp))
      intro x hx
      refine h0.2.2 x ?_
      rw [List.map_cons] at hx
      cases hr : renderAttr (c.Name, some c.Value) with
      | nil => exact absurd hr h0.1
      | cons y ys =>
        rw [hr] at hx
        cases hl : (writtenAttrs c).map renderAttr with
        | nil => rw [hl] at hx; simpa [joinSemi] using hx
        | cons z zs => rw [hl] at hx; simpa [joinSemi] using hx
    · refine (joinSemi_ends _ (by simp) ?_).2
      intro p hp
      obtain ⟨a, ha, rfl⟩ := List.mem_map.1 hp
      have := attr_ends (hok a ha) (by
        rcases List.mem_cons.1 ha with rfl | hm
        · right; simp
        · left; rw [hw] at hm; exact hnn a hm)
      exact ⟨this.1, this.2.1⟩
  rw [hstrip]
  unfold setCookieValue
  rw [setCookie_roundtrip (by simp) hok, hw]


theorem writePlainBody_panic : ∀ (fuel : Nat) (mem : Bytes) (r : Reader) (c : Client),
    (writePlainBody fuel mem r c).1 ≠ .panic := by
  intro fuel
  induction fuel with
  | zero => intros; simp [writePlainBody]
  | succ fuel ih =>
    intro mem r c
    simp only [writePlainBody]
    split
    · split
      · exact ih _ _ _
      · simp [errClose]
    · simp
    · simp [errClose]

end Indigo.Serializer
