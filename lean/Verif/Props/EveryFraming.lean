/-
C34, C63, C65 for all methods, HEAD included, and for all cookies.
-/
import Verif.Props.EveryHead
import Verif.Props.Framing

namespace Indigo.Props
open Spec Serializer

/-- **C63 (part).** Every response - with an attachment or without, to HEAD or another method, whether or not the writes succeed - is framed by
exactly one field, if the application sets none: Content-Length with the length of the body or the size of the attachment, or
Transfer-Encoding if this size is not known. To HEAD, it is the field which the response to GET would have. -/
theorem C63_every_response_partial (F : Fold) (n : Int) {defaults : List (Bytes × Bytes)}
    (hd : DefaultsOK F defaults) (history : List Sent) (p : Proto) {version : Bytes} (hp : versionName p = some version)
    (req : Request) {f : Fields} (hf : ResponseClean f) (hno : NoFraming defaults f) (c : Client) :
    ∃ head, c.written ++ [head ++ if req.Method = .HEAD ∨ f.Attachment.content ≠ none then [] else f.Body] <+:
        ((serializerAfter F n defaults history).write F p req f c).client.written ∧
      ∀ more, ∃ m, readMsg (head ++ more) = some m ∧ m.rest = more ∧
        framing m.fields =
          (if f.Attachment.content = none then [(b!"Content-Length", decBytes f.Body.length)]
           else if f.Attachment.size > 0 then [(b!"Content-Length", decBytes f.Attachment.size.toNat)]
           else [(b!"Transfer-Encoding", b!"chunked")]) := by
  obtain ⟨head, h1, h2⟩ := C25_every_head_partial F n hd history p hp req hf c
  refine ⟨head, h1, fun more => ⟨_, h2 more, rfl, ?_⟩⟩
  obtain ⟨t1, t2⟩ := framing_own hno (headersSet history) F
  have t4 : framing ([(b!"Content-Type", f.ContentType)].map (fun kv => (kv.1, stripOWS kv.2))) = [] :=
    framing_name (k := b!"Content-Type") (v := []) (by decide)
  have hl : (lower b!"Content-Length" == b!"content-length") = true := by decide
  cases ha : f.Attachment.content with
  | none =>
    simp only [headFields, ha, if_true, expectedFields, List.map_append, framing_append]
    have t3 : framing ((f.Cookies.map (fun c => (b!"Set-Cookie", setCookieValue c))).map (fun kv => (kv.1, stripOWS kv.2))) = [] := by
      apply framing_nil
      intro kv hkv
      simp only [List.mem_map] at hkv
      obtain ⟨_, ⟨x, hx, rfl⟩, rfl⟩ := hkv
      exact framing_name (k := b!"Set-Cookie") (v := []) (by decide)
    rw [t1, t2, t3, hno.2.2, t4]
    simp [framing, hl, stripOWS_decBytes]
  | some r =>
    simp only [headFields, ha, reduceCtorEq, if_false, attachmentFields, List.map_append, framing_append]
    rw [t1, t2, t4, hno.2.2]
    by_cases hs : f.Attachment.size > 0
    · simp only [if_pos hs, if_true, List.nil_append, List.map_cons, List.map_nil, stripOWS_decBytes]
      simp [framing, hl]
    · simp only [if_neg hs]
      decide

/-- **C65 (part).** No response, to HEAD or another method, says that it is in a transfer coding, unless it has an attachment of unknown size or the application has asked for the coding. -/
theorem C65_every_response_partial (F : Fold) (n : Int) {defaults : List (Bytes × Bytes)}
    (hd : DefaultsOK F defaults) (history : List Sent) (p : Proto) {version : Bytes} (hp : versionName p = some version)
    (req : Request) {f : Fields} (hf : ResponseClean f) (hno : NoFraming defaults f)
    (ha : f.Attachment.content = none ∨ f.Attachment.size > 0) (c : Client) :
    ∃ head, c.written ++ [head ++ if req.Method = .HEAD ∨ f.Attachment.content ≠ none then [] else f.Body] <+:
        ((serializerAfter F n defaults history).write F p req f c).client.written ∧
      ∀ more, ∃ m, readMsg (head ++ more) = some m ∧ m.rest = more ∧ ∀ kv ∈ m.fields, lower kv.1 ≠ b!"transfer-encoding" := by
  obtain ⟨head, h1, h2⟩ := C63_every_response_partial F n hd history p hp req hf hno c
  refine ⟨head, h1, fun more => ?_⟩
  obtain ⟨m, h3, h4, h5⟩ := h2 more
  refine ⟨m, h3, h4, ?_⟩
  intro kv hkv he
  have hmem : kv ∈ framing m.fields := List.mem_filter.2 ⟨hkv, by simp [he]⟩
  have key : ∀ v, framing m.fields = [(b!"Content-Length", v)] → False := by
    intro v h
    rw [h, List.mem_singleton] at hmem
    rw [hmem] at he
    revert he; simp only; decide
  rw [h5] at key
  by_cases hc : f.Attachment.content = none
  · rw [if_pos hc] at key
    exact key _ rfl
  · rw [if_neg hc, if_pos (ha.resolve_left hc)] at key
    exact key _ rfl

private theorem setCookie_read_any {c : Cookie} (h : CookieOK c) :
    readSetCookie (stripOWS (setCookieValue c)) = (c.Name, some c.Value) :: writtenAttrs c := by
  have hok := writtenAttrs_ok h
  have hnn : ∀ a ∈ writtenAttrs c, a.1 ≠ [] := by
    intro a ha
    unfold writtenAttrs cookieAttrs at ha
    simp only [List.mem_map, List.mem_append] at ha
    obtain ⟨a', ha, rfl⟩ := ha
    rcases ha with (((((ha | ha) | ha) | ha) | ha) | ha) | ha <;>
      (split at ha <;> simp at ha <;> subst ha <;> simp)
  have hstrip : stripOWS (setCookieValue c) = setCookieValue c := by
    unfold setCookieValue
    apply stripOWS_id
    · have h0 := attr_ends (hok (c.Name, some c.Value) (by simp)) (Or.inr (by simp))
      intro x hx
      refine h0.2.2 x ?_
      rw [List.map_cons] at hx
      cases hr : renderAttr (c.Name, some c.Value) with
      | nil => exact absurd hr h0.1
      | cons y ys =>
        rw [hr] at hx
        cases hl : (writtenAttrs c).map renderAttr with
        | nil => rw [hl] at hx; simpa [joinSemi] using hx
        | cons z zs => rw [hl] at hx; simpa [joinSemi] using hx
    · refine (joinSemi_ends _ (by simp) ?_).2
      intro p hp
      obtain ⟨a, ha, rfl⟩ := List.mem_map.1 hp
      have := attr_ends (hok a ha) (by
        rcases List.mem_cons.1 ha with rfl | hm
        · right; simp
        · left; exact hnn a hm)
      exact ⟨this.1, this.2.1⟩
  rw [hstrip]
  unfold setCookieValue
  rw [setCookie_roundtrip (by simp) hok]

/-- **C34 (part).** Every cookie of a response without attachment - to HEAD or another method - gets a Set-Cookie field of its own, in order. An independent reader
finds in it the name, the value and exactly the attributes which are set; only, what should be `Max-Age` is called `MaxAge` (`C34_max_age_violation`). -/
theorem C34_every_cookie_partial (F : Fold) (n : Int) {defaults : List (Bytes × Bytes)}
    (hd : DefaultsOK F defaults) (history : List Sent) (p : Proto) {version : Bytes} (hp : versionName p = some version)
    (req : Request) {f : Fields} (hf : ResponseClean f) (ha : f.Attachment.content = none)
    (hc : ∀ c ∈ f.Cookies, CookieOK c)
    (hh : ∀ h ∈ f.Headers, h.Key ≠ b!"Set-Cookie") (hdef : ∀ kv ∈ defaults, kv.1 ≠ b!"Set-Cookie")
    (c : Client) :
    ∃ head, c.written ++ [head ++ if req.Method = .HEAD then [] else f.Body] =
        ((serializerAfter F n defaults history).write F p req f c).client.written ∧
      ∀ more, ∃ m, readMsg (head ++ more) = some m ∧ m.rest = more ∧
        (m.fields.filter (fun kv => kv.1 == b!"Set-Cookie")).map (fun kv => readSetCookie kv.2) =
          f.Cookies.map (fun c => (c.Name, some c.Value) ::
            (cookieAttrs c).map (fun a => if a.1 = b!"Max-Age" then (b!"MaxAge", a.2) else a)) := by
  have hr := ready_after n hd.distinct history
  generalize serializerAfter F n defaults history = d at hr
  obtain ⟨hpp, hv⟩ := version_some hp
  refine ⟨Proto.toBytes p ++ plainHead F (defaultsAfter F defaults (headersSet history)) f, ?_, fun more =>
    ⟨_, read_plain F hd _ hf hpp more, rfl, ?_⟩⟩
  · rw [write_plain F d p req f c ha]
    simp only [hr.buff, hr.defaults, List.nil_append, Client.write]
    by_cases hm : req.Method = .HEAD <;> simp [hm]
  simp only [expectedFields, List.map_append, List.filter_append]
  have t1 : ((f.Headers.map (fun h => (h.Key, h.Value))).map (fun kv => (kv.1, stripOWS kv.2))).filter
      (fun kv => kv.1 == b!"Set-Cookie") = [] := by
    rw [List.filter_eq_nil_iff]
    intro x hx
    simp only [List.mem_map] at hx
    obtain ⟨_, ⟨h, hm, rfl⟩, rfl⟩ := hx
    simpa using hh h hm
  have t2 : ((defaults.filter (fun d => !(headersSet history ++ f.Headers).any (fun h => F.eq d.1 h.Key))).map
      (fun kv => (kv.1, stripOWS kv.2))).filter (fun kv => kv.1 == b!"Set-Cookie") = [] := by
    rw [List.filter_eq_nil_iff]
    intro x hx
    simp only [List.mem_map, List.mem_filter] at hx
    obtain ⟨d, ⟨hm, _⟩, rfl⟩ := hx
    simpa using hdef d hm
  have t3 : ([(b!"Content-Type", f.ContentType)].map (fun kv => (kv.1, stripOWS kv.2))).filter
      (fun kv => kv.1 == b!"Set-Cookie") = [] := by simp
  have t4 : ((if f.TransferEncoding = [] then [] else [(b!"Transfer-Encoding", f.TransferEncoding)]).map
      (fun kv => (kv.1, stripOWS kv.2))).filter (fun kv => kv.1 == b!"Set-Cookie") = [] := by split <;> simp
  have t5 : ([(b!"Content-Length", decBytes f.Body.length)].map (fun kv => (kv.1, stripOWS kv.2))).filter
      (fun kv => kv.1 == b!"Set-Cookie") = [] := by simp
  have t6 : ((f.Cookies.map (fun c => (b!"Set-Cookie", setCookieValue c))).map (fun kv => (kv.1, stripOWS kv.2))).filter
      (fun kv => kv.1 == b!"Set-Cookie") = f.Cookies.map (fun c => (b!"Set-Cookie", stripOWS (setCookieValue c))) := by
    rw [List.filter_eq_self.2]
    · simp
    · intro x hx
      simp only [List.mem_map] at hx
      obtain ⟨_, ⟨_, _, rfl⟩, rfl⟩ := hx
      rfl
  rw [t1, t2, t3, t4, t5, t6]
  simp only [List.map_nil, List.nil_append, List.append_nil, List.map_map]
  apply List.map_congr_left
  intro ck hck
  exact setCookie_read_any (hc ck hck)

/-- A response with a cookie whose age is limited, sent to HEAD. -/
def aged : Fields := { Body := b!"hi", Cookies := [{ Name := b!"a", Value := b!"b", MaxAge := -1, HttpOnly := true }] }

set_option maxRecDepth 20000 in
example : ResponseClean aged ∧ NoFraming [(b!"Server", b!"x")] aged ∧ CookieOK { Name := b!"a", Value := b!"b", MaxAge := -1, HttpOnly := true } ∧
    sentBytes ((Serializer.new 16 [(b!"Server", b!"x")]).write Fold.ascii Proto.HTTP11 { sampleReq with Method := .HEAD } aged {}) =
      b!"HTTP/1.1 200 OK\r\nServer: x\r\nContent-Type: text/html\r\nSet-Cookie: a=b; MaxAge=0; HttpOnly\r\nContent-Length: 2\r\n\r\n" := by
  refine ⟨⟨by simp [aged], by simp [aged, NoBreak], by simp [aged, NoBreak], ?_⟩, ⟨by simp [aged], ?_, rfl⟩, ?_, by decide +kernel⟩
  · intro c hc
    simp [aged] at hc
    subst hc
    unfold NoBreak
    decide
  · intro h hh; simp at hh; subst hh; decide
  · refine ⟨?_, ?_, ?_, ?_, ?_, ?_⟩
    · simp [CookieText]; decide
    · simp [CookieText]; decide
    · simp [CookieText]
    · simp [CookieText]
    · simp [CookieText]
    · simp [CookieText]

end Indigo.Props
