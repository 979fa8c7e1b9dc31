/-
C91: requests whose body cannot be read to its end.
-/
import Verif.Proofs.Cut
import Verif.Props.ServeWitness

namespace Indigo.Props
open Indigo.Spec Indigo.Serve Indigo.Body
variable {σ ρ : Type}

/-- **C91.** On a new connection, after any sequence of well-formed requests (for which see `C22_pipelining`) a request with a
well-formed head, whose body is cut off or longer than allowed (`CutBody`), in any segmentation: the router is called with it,
once, its answer is written, the router is told that the connection is being closed, and that is all (`LastRequest`), whatever
bytes come after the head, and whatever the handler does with the body. After the bytes there come only errors, io.EOF included. -/
theorem C91_last_request (E : Setup σ ρ) (dec : DecodesChunked E.P) (cfg : Config)
    (size : cfg.bodyMaxSize < 2 ^ 64) (enc : EncToken) (remote : Bytes) (st : ρ) (tame : Tame E st) (cl : Client) (quiet : Quiet cl)
    (post : List (Bytes × Option GoErr)) (over : Over post) (ss : List Sending) (ok : ∀ s ∈ ss, SendableWith E.F cfg s)
    (h : Head) (path given : Bytes) (good : GoodHead (headLimits cfg) h path)
    (cut : CutBody E.F cfg.maxEncodingTokens.toNat cfg.bodyMaxSize.toNat h given)
    (stream : cl.stream = ss.flatMap Sending.bytes ++ (h.render ++ given)) :
    ∃ c why vs frames, serve E (newConn E.P cfg enc remote st (followedBy cl post)) = (c, some why) ∧
      c.visits = vs ∧ c.client.written = cl.written ++ frames ∧
      Conversation E cfg.maxEncodingTokens.toNat remote (h.render ++ given) post
        (LastRequest E cfg.maxEncodingTokens.toNat remote post h path given) { Encryption := enc } st
        (Serializer.new cfg.responseBuffSize (cfg.defaultHeaders.getD [])) Fields.new cl.wscript ss vs frames why := by
  obtain ⟨vs, frames, why, h1, h2⟩ := serve_conversation E dec (L := headLimits cfg) (limit := cfg.bodyMaxSize.toNat)
    (by unfold maxUint; omega) (remote := remote) (h.render ++ given) post
    (LastRequest E cfg.maxEncodingTokens.toNat remote post h path given)
    (fun env c cl1 idle hc q hs => serve_last E dec (by unfold maxUint; omega) post over h path given good cut env c cl1 idle hc q hs)
    ss { Encryption := enc } (newConn E.P cfg enc remote st (followedBy cl post)) cl tame
    (newConn_idle E cfg enc remote st _) rfl quiet ok stream
  exact ⟨_, why, vs, frames, by rw [← h1.why], by rw [h1.visits]; rfl, h1.written, h2⟩

/-- The calls of such a conversation. -/
theorem conversation_last {E : Setup σ ρ} {T : Nat} {remote tail path given : Bytes} {post} {h : Head}
    {env st d pre ws ss vs frames why}
    (hc : Conversation E T remote tail post (LastRequest E T remote post h path given) env st d pre ws ss vs frames why) :
    ∀ (i : Nat) seen world a left, vs[i]? = some (Visit.request seen world a left) →
      (∃ s, ss[i]? = some s ∧
        Delivered E T remote post (if i = 0 then env else {}) s ((ss.drop (i + 1)).flatMap Sending.bytes ++ tail) seen world) ∨
      (i = ss.length ∧ Announced E T remote post (if i = 0 then env else {}) h path given seen world) := by
  induction hc with
  | done he =>
    intro i seen world a left hi
    right
    have hz : ∀ {v : Visit σ} {i : Nat}, [v][i]? = some (Visit.request seen world a left) → i = 0 ∧ v = .request seen world a left := by
      intro v i hi
      cases i with
      | zero => simp at hi; exact ⟨rfl, hi⟩
      | succ i => simp at hi
    cases he with
    | panicked ha => obtain ⟨rfl, hv⟩ := hz hi; cases hv; exact ⟨rfl, ha⟩
    | hijacked ha => obtain ⟨rfl, hv⟩ := hz hi; cases hv; exact ⟨rfl, ha⟩
    | broken ha => obtain ⟨rfl, hv⟩ := hz hi; cases hv; exact ⟨rfl, ha⟩
    | answered ha =>
      cases i with
      | zero => simp at hi; obtain ⟨rfl, rfl, _⟩ := hi; exact ⟨rfl, ha⟩
      | succ i => cases i <;> simp at hi
  | panicked hd =>
    intro i seen world a left hi
    cases i with
    | zero => simp at hi; obtain ⟨rfl, rfl, _⟩ := hi; exact .inl ⟨_, rfl, hd⟩
    | succ i => simp at hi
  | hijacked hd =>
    intro i seen world a left hi
    cases i with
    | zero => simp at hi; obtain ⟨rfl, rfl, _⟩ := hi; exact .inl ⟨_, rfl, hd⟩
    | succ i => simp at hi
  | broken hd =>
    intro i seen world a left hi
    cases i with
    | zero => simp at hi; obtain ⟨rfl, rfl, _⟩ := hi; exact .inl ⟨_, rfl, hd⟩
    | succ i => simp at hi
  | closed hd =>
    intro i seen world a left hi
    cases i with
    | zero => simp at hi; obtain ⟨rfl, rfl, _⟩ := hi; exact .inl ⟨_, rfl, hd⟩
    | succ i => cases i <;> simp at hi
  | next hd _ _ _ _ _ ih =>
    intro i seen world a left hi
    cases i with
    | zero => simp at hi; obtain ⟨rfl, rfl, _⟩ := hi; exact .inl ⟨_, rfl, hd⟩
    | succ i =>
      simp at hi
      rcases ih i seen world a left hi with ⟨s, h1, h2⟩ | ⟨h1, h2⟩
      · exact .inl ⟨s, by simpa using h1, by simpa using h2⟩
      · exact .inr ⟨by simp [h1], by simpa using h2⟩

/-- **C91, consequence.** No handler is ever called for bytes which come after the head of the request whose body is cut off or
too long: each call of the handler is for one of the requests before it, or the one for itself. -/
theorem C91_nothing_after (E : Setup σ ρ) (dec : DecodesChunked E.P) (cfg : Config)
    (size : cfg.bodyMaxSize < 2 ^ 64) (enc : EncToken) (remote : Bytes) (st : ρ) (tame : Tame E st) (cl : Client) (quiet : Quiet cl)
    (post : List (Bytes × Option GoErr)) (over : Over post) (ss : List Sending) (ok : ∀ s ∈ ss, SendableWith E.F cfg s)
    (h : Head) (path given : Bytes) (good : GoodHead (headLimits cfg) h path)
    (cut : CutBody E.F cfg.maxEncodingTokens.toNat cfg.bodyMaxSize.toNat h given)
    (stream : cl.stream = ss.flatMap Sending.bytes ++ (h.render ++ given))
    (i : Nat) (seen : Request) (world : BC σ) (a : Option (Fields × Request)) (left : Act.World σ)
    (call : (serve E (newConn E.P cfg enc remote st (followedBy cl post))).1.visits[i]? = some (.request seen world a left)) :
    (∃ s, ss[i]? = some s ∧ Carries E.F cfg.maxEncodingTokens.toNat s.head seen ∧ seen.Path = s.path) ∨
      (i = ss.length ∧ Carries E.F cfg.maxEncodingTokens.toNat h seen ∧ seen.Path = path) := by
  obtain ⟨c, why, vs, frames, h1, h2, _, h3⟩ :=
    C91_last_request E dec cfg size enc remote st tame cl quiet post over ss ok h path given good cut stream
  rw [h1, h2] at call
  rcases conversation_last h3 i seen world a left call with ⟨s, k1, k2⟩ | ⟨k1, k2⟩
  · exact .inl ⟨s, k1, k2.carries, k2.path⟩
  · exact .inr ⟨k1, k2.carries, k2.path⟩

/-! ### Concrete requests -/

/-- `POST /big` with a Content-Length of `n`. -/
private def big (n : Bytes) : Head :=
  { method := .POST, target := b!"/big", query := none, version := b!"HTTP/1.1", crlf := true,
    fields := [⟨b!"Content-Length", 1, n, true⟩], lastCrlf := true }

private theorem big_good (n : Bytes) (hn : n = b!"9" ∨ n = b!"1099511627776") : GoodHead (headLimits Config.default) (big n) b!"/big" := by
  rcases hn with rfl | rfl
  all_goals exact {
    ok := ⟨by decide, by decide, by simp [big], ⟨⟨_, 46, .inr (.inl ⟨rfl, rfl⟩)⟩, by decide, by decide⟩, by
      simp only [big, List.mem_singleton, forall_eq]
      exact ⟨by decide, by decide, by decide, by decide, by decide, fun _ => by decide⟩⟩
    clean := by unfold Head.CleanNames; decide
    noBareEmpty := by unfold Head.NoBareEmpty; decide
    fits := ⟨by decide +kernel, by decide +kernel, by decide +kernel, by decide +kernel, by decide +kernel⟩
    path := pct_lit (by decide) }

/-- A Content-Length of 2^40 followed by a complete request; one of 9 and 5 bytes; a chunked body without its last chunk. -/
example :
    (GoodHead (headLimits Config.default) (big b!"1099511627776") b!"/big" ∧
      CutBody Fold.ascii Config.default.maxEncodingTokens.toNat Config.default.bodyMaxSize.toNat (big b!"1099511627776") b!"GET / HTTP/1.1\r\n\r\n") ∧
    (GoodHead (headLimits Config.default) (big b!"9") b!"/big" ∧
      CutBody Fold.ascii Config.default.maxEncodingTokens.toNat Config.default.bodyMaxSize.toNat (big b!"9") b!"hello") ∧
    (GoodHead (headLimits Config.default) chunked.head chunked.path ∧
      CutBody Fold.ascii Config.default.maxEncodingTokens.toNat Config.default.bodyMaxSize.toNat chunked.head b!"2\r\nhe\r\n3\r\nl") := by
  refine ⟨⟨big_good _ (.inr rfl), .large (by decide) (by decide)⟩,
    ⟨big_good _ (.inl rfl), .short (by decide) (by decide)⟩,
    ⟨chunked_ok.ok, chunked_ok.clean, chunked_ok.noBareEmpty, chunked_ok.fits, chunked_ok.path⟩, ?_⟩
  have hf := chunked_ok.framed
  cases hf with
  | sized h => exact absurd h (by decide +kernel)
  | chunked chunks h1 h2 h3 =>
    refine .chunked chunks b!"lo\r\n0\r\n\r\n" h1 h2 (by decide) ?_
    rw [← h3]
    decide

/-- What such connections look like: the answer to the request before, the answer to the request with the body which is too
long, and nothing else, although a complete request comes after it. -/
example : exchange (fun r => pure (Fields.new.bytes r.Path, r)) 0
      [posted.bytes ++ (big b!"1099511627776").render, b!"GET / HTTP/1.1\r\n\r\n"] =
    ([b!"HTTP/1.1 200 OK\r\nAccept-Encodings: identity\r\nContent-Type: text/html\r\nContent-Length: 2\r\n\r\n/a",
      b!"HTTP/1.1 200 OK\r\nAccept-Encodings: identity\r\nContent-Type: text/html\r\nContent-Length: 4\r\n\r\n/big"], some .clearFailed) := by decide +kernel

end Indigo.Props
