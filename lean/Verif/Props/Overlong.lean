/-
C96: requests whose chunked body is longer than allowed.
-/
import Verif.Proofs.Overlong
import Verif.Props.Cut

namespace Indigo.Props
open Indigo.Spec Indigo.Serve Indigo.Body
variable {σ ρ : Type}

/-- **C96, what holds.** On a new connection, after any sequence of well-formed requests, a request with a well-formed head
which announces the chunked coding, followed by the coding of a body which is longer than allowed, or by a beginning of it, in any
segmentation; handlers do not use the bodies of requests. Then the router is called with it, once, its answer is written, the
router is told that the connection is being closed, and that is all (`LastRequest`), whatever bytes come after. (Missing: handlers
which use the body; for them this is false, see `C96_smuggled_violation`.) -/
theorem C96_last_request_partial (E : Setup σ ρ) (dec : DecodesChunked E.P) (leaves : LeavesBody E) (cfg : Config)
    (size : cfg.bodyMaxSize < 2 ^ 64) (enc : EncToken) (remote : Bytes) (st : ρ) (tame : Tame E st) (cl : Client) (quiet : Quiet cl)
    (post : List (Bytes × Option GoErr)) (over : Over post) (ss : List Sending) (ok : ∀ s ∈ ss, SendableWith E.F cfg s)
    (h : Head) (path given : Bytes) (good : GoodHead (headLimits cfg) h path)
    (long : OverlongBody E.F cfg.maxEncodingTokens.toNat cfg.bodyMaxSize.toNat h given)
    (stream : cl.stream = ss.flatMap Sending.bytes ++ (h.render ++ given)) :
    ∃ c why vs frames, serve E (newConn E.P cfg enc remote st (followedBy cl post)) = (c, some why) ∧
      c.visits = vs ∧ c.client.written = cl.written ++ frames ∧
      Conversation E cfg.maxEncodingTokens.toNat remote (h.render ++ given) post
        (LastRequest E cfg.maxEncodingTokens.toNat remote post h path given) { Encryption := enc } st
        (Serializer.new cfg.responseBuffSize (cfg.defaultHeaders.getD [])) Fields.new cl.wscript ss vs frames why := by
  obtain ⟨vs, frames, why, h1, h2⟩ := serve_conversation E dec (L := headLimits cfg) (limit := cfg.bodyMaxSize.toNat)
    (by unfold maxUint; omega) (remote := remote) (h.render ++ given) post
    (LastRequest E cfg.maxEncodingTokens.toNat remote post h path given)
    (fun env c cl1 idle hc q hs => serve_overlong E dec leaves (by unfold maxUint; omega) post over h path given good long env c cl1 idle hc q hs)
    ss { Encryption := enc } (newConn E.P cfg enc remote st (followedBy cl post)) cl tame
    (newConn_idle E cfg enc remote st _) rfl quiet ok stream
  exact ⟨_, why, vs, frames, by rw [← h1.why], by rw [h1.visits]; rfl, h1.written, h2⟩

/-- **C96, consequence.** No handler is ever called for bytes which come after the head of a request whose chunked body is too
long: each call of the handler is for one of the requests before it, or the one for itself. (Handlers which do not use bodies.) -/
theorem C96_nothing_after_partial (E : Setup σ ρ) (dec : DecodesChunked E.P) (leaves : LeavesBody E) (cfg : Config)
    (size : cfg.bodyMaxSize < 2 ^ 64) (enc : EncToken) (remote : Bytes) (st : ρ) (tame : Tame E st) (cl : Client) (quiet : Quiet cl)
    (post : List (Bytes × Option GoErr)) (over : Over post) (ss : List Sending) (ok : ∀ s ∈ ss, SendableWith E.F cfg s)
    (h : Head) (path given : Bytes) (good : GoodHead (headLimits cfg) h path)
    (long : OverlongBody E.F cfg.maxEncodingTokens.toNat cfg.bodyMaxSize.toNat h given)
    (stream : cl.stream = ss.flatMap Sending.bytes ++ (h.render ++ given))
    (i : Nat) (seen : Request) (world : BC σ) (a : Option (Fields × Request)) (left : Act.World σ)
    (call : (serve E (newConn E.P cfg enc remote st (followedBy cl post))).1.visits[i]? = some (.request seen world a left)) :
    (∃ s, ss[i]? = some s ∧ Carries E.F cfg.maxEncodingTokens.toNat s.head seen ∧ seen.Path = s.path) ∨
      (i = ss.length ∧ Carries E.F cfg.maxEncodingTokens.toNat h seen ∧ seen.Path = path) := by
  obtain ⟨c, why, vs, frames, h1, h2, _, h3⟩ :=
    C96_last_request_partial E dec leaves cfg size enc remote st tame cl quiet post over ss ok h path given good long stream
  rw [h1, h2] at call
  rcases conversation_last h3 i seen world a left call with ⟨s, k1, k2⟩ | ⟨k1, k2⟩
  · exact .inl ⟨s, k1, k2.carries, k2.path⟩
  · exact .inr ⟨k1, k2.carries, k2.path⟩

/-- **C96, malformed bodies.** Whatever comes after a well-formed head, in any segmentation, and whatever decoder of chunked
bodies is used: if the body, as the handler of the request leaves it, cannot be read to its end without an error (because what
comes is not the chunked coding of anything, is too long, or is cut off), then this request is the last one. (For handlers which
do not use the body, that is, if it cannot be read at all.) -/
theorem C96_unreadable_rest (E : Setup σ ρ) (dec : DecodesChunked E.P) (cfg : Config)
    (size : cfg.bodyMaxSize < 2 ^ 64) (enc : EncToken) (remote : Bytes) (st : ρ) (tame : Tame E st) (cl : Client) (quiet : Quiet cl)
    (post : List (Bytes × Option GoErr)) (ss : List Sending) (ok : ∀ s ∈ ss, SendableWith E.F cfg s)
    (h : Head) (path given : Bytes) (good : GoodHead (headLimits cfg) h path)
    (fails : ∀ env st seen world answer left,
      Announced E cfg.maxEncodingTokens.toNat remote post env h path given seen world →
      world.1.maxBodyLen = cfg.bodyMaxSize.toNat → Answers E st seen world (answer, left) → left.hijacked = false →
      ∃ ds e s', Pieces E.P (left.body, left.client) ds e s' ∧ e ≠ .eof)
    (stream : cl.stream = ss.flatMap Sending.bytes ++ (h.render ++ given)) :
    ∃ c why vs frames, serve E (newConn E.P cfg enc remote st (followedBy cl post)) = (c, some why) ∧
      c.visits = vs ∧ c.client.written = cl.written ++ frames ∧
      Conversation E cfg.maxEncodingTokens.toNat remote (h.render ++ given) post
        (LastRequest E cfg.maxEncodingTokens.toNat remote post h path given) { Encryption := enc } st
        (Serializer.new cfg.responseBuffSize (cfg.defaultHeaders.getD [])) Fields.new cl.wscript ss vs frames why := by
  obtain ⟨vs, frames, why, h1, h2⟩ := serve_conversation E dec (L := headLimits cfg) (limit := cfg.bodyMaxSize.toNat)
    (by unfold maxUint; omega) (remote := remote) (h.render ++ given) post
    (LastRequest E cfg.maxEncodingTokens.toNat remote post h path given)
    (fun env c cl1 idle hc q hs => serve_unreadable E post h path given good fails env c cl1 idle hc q hs)
    ss { Encryption := enc } (newConn E.P cfg enc remote st (followedBy cl post)) cl tame
    (newConn_idle E cfg enc remote st _) rfl quiet ok stream
  exact ⟨_, why, vs, frames, by rw [← h1.why], by rw [h1.visits]; rfl, h1.written, h2⟩

/-! ### Concrete requests -/

/-- The default configuration, with bodies of at most 32 bytes. -/
def small : Config := { Config.default with bodyMaxSize := 32 }

/-- The head of `POST /a` with a chunked body. -/
private def chunkedHead : Head :=
  { method := .POST, target := b!"/a", query := none, version := b!"HTTP/1.1", crlf := true,
    fields := [⟨b!"Transfer-Encoding", 1, b!"chunked", true⟩], lastCrlf := true }

/-- The coding of a body of 33 bytes. -/
private def coded33 : Bytes := b!"21\r\n0123456789abcdef0123456789abcdef.\r\n0\r\n\r\n"

private theorem coded33_coding : ChunkedCoding [b!"0123456789abcdef0123456789abcdef."] coded33 :=
  .chunk (ds := b!"21") (by decide) (by decide) (.last (ds := b!"0") (by decide))

private theorem chunkedHead_good : GoodHead (headLimits small) chunkedHead b!"/a" := {
    ok := ⟨by decide, by decide, by simp [chunkedHead], ⟨⟨_, 46, .inr (.inl ⟨rfl, rfl⟩)⟩, by decide, by decide⟩, by
      simp only [chunkedHead, List.mem_singleton, forall_eq]
      exact ⟨by decide, by decide, by decide, by decide, by decide, by decide⟩⟩
    clean := by unfold Head.CleanNames; decide
    noBareEmpty := by unfold Head.NoBareEmpty; decide
    fits := ⟨by decide +kernel, by decide +kernel, by decide +kernel, by decide +kernel, by decide +kernel⟩
    path := pct_lit (by decide) }

/-- `POST /b` with a body of 24 bytes, which happens to look like the end of a chunked body and another request. -/
private def inner : Sending where
  head := { method := .POST, target := b!"/b", query := none, version := b!"HTTP/1.1", crlf := true,
            fields := [⟨b!"Content-Length", 1, b!"24", true⟩], lastCrlf := true }
  path := b!"/b"
  body := b!"0\r\n\r\nGET /c HTTP/1.1\r\n\r\n"
  coded := b!"0\r\n\r\nGET /c HTTP/1.1\r\n\r\n"

private theorem inner_ok : SendableWith Fold.ascii small inner where
  ok := ⟨by decide, by decide, by simp [inner], ⟨⟨_, 46, .inr (.inl ⟨rfl, rfl⟩)⟩, by decide, by decide⟩, by
    simp only [inner, List.mem_singleton, forall_eq]
    exact ⟨by decide, by decide, by decide, by decide, by decide, fun _ => by decide⟩⟩
  clean := by unfold Head.CleanNames; decide
  noBareEmpty := by unfold Head.NoBareEmpty; decide
  fits := ⟨by decide +kernel, by decide +kernel, by decide +kernel, by decide +kernel, by decide +kernel⟩
  path := pct_lit (by decide)
  framed := .sized (by decide +kernel) rfl (by decide)
  body := by decide +kernel

/-- The hypotheses of `C96_last_request_partial` are met by a handler which does not read bodies, the whole of a body of 33 bytes
when 32 are allowed and a request after it, or a beginning of that body; and what is written is the answer to this request only. -/
example : LeavesBody ({ simple with router := { simple.router with onRequest := fun st r => (pure (Fields.new.bytes r.Path, r), st) } }) ∧
    GoodHead (headLimits small) chunkedHead b!"/a" ∧
    OverlongBody Fold.ascii small.maxEncodingTokens.toNat small.bodyMaxSize.toNat chunkedHead (coded33 ++ inner.bytes) ∧
    OverlongBody Fold.ascii small.maxEncodingTokens.toNat small.bodyMaxSize.toNat chunkedHead (coded33.take 20) ∧
    (serve simple (newConn simple.P small 0 b!"1.2.3.4" ⟨fun r => pure (Fields.new.bytes r.Path, r), reportError⟩
      (arrive [chunkedHead.render, coded33 ++ inner.bytes.take 40, inner.bytes.drop 40]))).1.client.written =
      [b!"HTTP/1.1 200 OK\r\nAccept-Encodings: identity\r\nContent-Type: text/html\r\nContent-Length: 2\r\n\r\n/a"] := by
  refine ⟨fun st req w _ => rfl, chunkedHead_good, ⟨by decide +kernel, _, _, [], _, coded33_coding, by simp; rfl, .inl rfl, by decide +kernel⟩,
    ⟨by decide +kernel, _, _, coded33.drop 20, [], coded33_coding, by decide, .inr rfl, by decide +kernel⟩, by decide +kernel⟩

/-- A server whose handler does not use bodies. -/
private def idleServer : Setup CS (Simple.Router Act) :=
  { simple with router := { simple.router with onRequest := fun st r => (pure (Fields.new.bytes r.Path, r), st) } }

/-- The hypothesis `fails` of `C96_unreadable_rest` is met by such a server and the whole of this body. -/
example (remote : Bytes) : ∀ env st seen world answer left,
    Announced idleServer small.maxEncodingTokens.toNat remote [] env chunkedHead b!"/a" (coded33 ++ inner.bytes) seen world →
    world.1.maxBodyLen = small.bodyMaxSize.toNat →
    Answers idleServer st seen world (answer, left) → left.hijacked = false →
    ∃ ds e s', Pieces idleServer.P (left.body, left.client) ds e s' ∧ e ≠ .eof := by
  intro env st seen world answer left ann hmax hans _
  have hl : left = { body := world.1, client := world.2, hijacked := false } := (congrArg Prod.snd hans).symm
  subst hl
  obtain ⟨b, hb, hi⟩ := ann.fresh
  rw [hb, initFor_max] at hmax
  obtain ⟨c, hc, hs, hq⟩ := ann.rest
  have hch : seen.Encoding.Chunked = true := by
    rw [ann.carries.chunked, ann.carries.transfer]
    show chunkedHead.isChunked Fold.ascii small.maxEncodingTokens.toNat = true
    decide +kernel
  obtain ⟨ds, s', h, -⟩ := C19_chunked_too_large refParser ref_decodes b seen c
    b!"0123456789abcdef0123456789abcdef." inner.bytes hch (by rw [hmax]; decide) (by rw [hmax]; decide)
    (by rw [hs, hi]; exact crun_coding _ coded33_coding inner.bytes) hq
  refine ⟨ds, .http Status.ErrBodyTooLarge, s', ?_, by simp⟩
  simp only [hb, hc]
  have : followedBy c [] = c := by simp [followedBy]
  rw [this]
  exact h

/-- **C96 is false** of handlers which read the body: the error about the size of the body does not end the body, what came with
the last bytes read is lost, and the discarding between requests goes on reading the connection as if it were that body. Here a
request with a chunked body of 33 bytes, when 32 are allowed, is followed by a well-formed request for `/b`. The handler reads the
body, gets the error, and answers 413. Then it is called with a request for `/c`: its bytes are the body of the request for `/b`,
for which the handler is not called. -/
theorem C96_smuggled_violation : ∃ (handler : Router.Handler Act) (cl : Client), Quiet cl ∧ DecodesChunked simple.P ∧
    Tame simple ⟨handler, reportError⟩ ∧ GoodHead (headLimits small) chunkedHead b!"/a" ∧
    OverlongBody simple.F small.maxEncodingTokens.toNat small.bodyMaxSize.toNat chunkedHead (coded33 ++ inner.bytes) ∧
    SendableWith simple.F small inner ∧ inner.path = b!"/b" ∧
    cl.stream = chunkedHead.render ++ (coded33 ++ inner.bytes) ∧
    (serve simple (newConn simple.P small 0 b!"1.2.3.4" ⟨handler, reportError⟩ cl)).1.visits.filterMap
      (fun | .request seen .. => some seen.Path | _ => none) = [b!"/a", b!"/c"] ∧
    (serve simple (newConn simple.P small 0 b!"1.2.3.4" ⟨handler, reportError⟩ cl)).1.client.written =
      [b!"HTTP/1.1 413 Request Entity Too Large\r\nAccept-Encodings: identity\r\nContent-Type: text/html\r\nContent-Length: 2\r\n\r\n/a",
       b!"HTTP/1.1 200 OK\r\nAccept-Encodings: identity\r\nContent-Type: text/html\r\nContent-Length: 2\r\n\r\n/c"] := by
  let handler : Router.Handler Act := fun r => do
    match ← Act.call .bytes with
    | .whole _ (some _) => pure ((Fields.new.code 413).bytes r.Path, r)
    | _ => pure (Fields.new.bytes r.Path, r)
  refine ⟨handler, arrive [chunkedHead.render, coded33 ++ inner.head.render, inner.coded], by unfold Quiet; decide +kernel,
    ref_decodesChunked, ?_, chunkedHead_good,
    ⟨by decide +kernel, _, _, [], _, coded33_coding, by simp; rfl, .inl rfl, by decide +kernel⟩, inner_ok, rfl, by decide +kernel,
    by decide +kernel, by decide +kernel⟩
  intro history req w f req' hq hr
  rw [simple_state] at hr
  have : req' = req := by
    change (Act.run refParser (2 ^ 32) (handler req) w).1 = _ at hr
    change (Act.run refParser (2 ^ 32) (Act.bind (Act.body .bytes _) _) w).1 = _ at hr
    simp only [Act.bind, Act.run] at hr
    generalize (Body.call refParser (2 ^ 32) (w.body, w.client) Body.Call.bytes) = a at hr
    obtain ⟨a, s⟩ := a
    cases a with
    | whole d e => cases e <;> simp [Act.bind, Act.run, Pure.pure] at hr <;> exact hr.2.symm
    | _ => simp [Act.bind, Act.run, Pure.pure] at hr; try exact hr.2.symm
  subst this
  exact ⟨hq, rfl, rfl⟩

/-- A chunked coding begins with a digit. -/
theorem coding_begins {chunks : List Bytes} {coded : Bytes} (h : ChunkedCoding chunks coded) : ∃ c rest, coded = c :: rest ∧ chunkDigit? c ≠ none := by
  have key : ∀ ds n, chunkSize ds = some n → ∃ c rest, ds = c :: rest ∧ chunkDigit? c ≠ none := by
    intro ds n hn
    cases ds with
    | nil => cases hn
    | cons c rest =>
      refine ⟨c, rest, rfl, fun hc => ?_⟩
      simp only [chunkSize, List.foldl_cons, Option.bind_some, hc, Option.map_none] at hn
      have hnone : ∀ l : Bytes, l.foldl (fun acc b => acc.bind fun n => (chunkDigit? b).map fun v => 16 * n + v) none = (none : Option Nat) := by
        intro l
        induction l with
        | nil => rfl
        | cons b l ih => simpa using ih
      rw [hnone] at hn
      cases hn
  cases h with
  | last h => obtain ⟨c, rest, rfl, hc⟩ := key _ _ h; exact ⟨c, _, rfl, hc⟩
  | chunk h => obtain ⟨c, rest, rfl, hc⟩ := key _ _ h; exact ⟨c, _, rfl, hc⟩

/-- The same with a chunked body which is malformed, and a decoder which, like `refParser`, can be used again after an error. The
handler reads the body, gets the error and answers 400; what comes next is read as if it were that body, and then as another
request. -/
theorem C96_malformed_violation : ∃ handler : Router.Handler Act, DecodesChunked simple.P ∧
    (∀ chunks coded missing after, ¬ (ChunkedCoding chunks coded ∧ b!"x\r\n0\r\n\r\nGET /c HTTP/1.1\r\n\r\n" ++ missing = coded ++ after)) ∧
    (serve simple (newConn simple.P small 0 b!"1.2.3.4" ⟨handler, reportError⟩
      (arrive [chunkedHead.render, b!"x\r\n", b!"0\r\n\r\nGET /c HTTP/1.1\r\n\r\n"]))).1.visits.filterMap
      (fun | .request seen .. => some seen.Path | _ => none) = [b!"/a", b!"/c"] := by
  refine ⟨fun r => do
    match ← Act.call .bytes with
    | .whole _ (some _) => pure ((Fields.new.code 400).bytes r.Path, r)
    | _ => pure (Fields.new.bytes r.Path, r), ref_decodesChunked, ?_, by decide +kernel⟩
  rintro chunks coded missing after ⟨h1, h2⟩
  obtain ⟨c, rest, rfl, hc⟩ := coding_begins h1
  simp only [List.cons_append, List.cons.injEq] at h2
  exact hc (by rw [← h2.1]; decide)

end Indigo.Props
