/-
C03, C69, C70: what becomes of every stream of bytes.
-/
import Verif.Props.Serve2
import Verif.Proofs.LongLine

namespace Indigo.Props
open Indigo.Spec Indigo.Serve Indigo.Body
variable {σ ρ : Type}

/-- **C69.** Every stream (with clean names and a request line which is not too long) is of exactly one of four kinds,
and the result of parsing tells which, however the stream is cut into segments: the head is complete if and only if the
stream begins with a well-formed head within the limits; an error is reported if and only if the stream has the fault the
error belongs to; the parser panics if and only if a value or the protocol version is empty in front of a bare LF
(`HeadCrash`); more data is needed if and only if the stream is faultless so far and not finished (`HeadOpen`). -/
theorem C69_every_stream (F : Fold) (p : Parser.PState) (hp : Parser.Ready p) (segs : List Bytes)
    (fits : RequestLineFits p.startLine.max segs.flatten) (clean : CleanStream segs.flatten) :
    ((∃ x, (Parser.feed F p segs).2.1 = .completed x) ↔ Acceptable (Parser.limits p) segs.flatten) ∧
    (∀ e, (Parser.feed F p segs).2.1 = .error e ↔ HeadFault (Parser.limits p) segs.flatten e) ∧
    ((Parser.feed F p segs).2.1 = .panic ↔ HeadCrash (Parser.limits p) segs.flatten) ∧
    ((Parser.feed F p segs).2.1 = .pending ↔ HeadOpen (Parser.limits p) segs.flatten) :=
  Parser.feed_outcome F p hp segs fits clean

/-- **C69.** A stream has at most one fault which counts. -/
theorem C69_one_fault (L : Limits) (s : Bytes) (e e' : Status.HTTPError) (h : HeadFault L s e) (h' : HeadFault L s e') :
    e = e' := by
  let p := Parser.new { maxNumber := L.number, maxValueLength := L.value, maxEncodingTokens := 0 } L.line L.names L.values
  have hp : Parser.Ready p := Parser.ready_new _ _ _ _
  have h1 := Parser.head_fault Fold.ascii hp (s := s) (e := e) h
  have h2 := Parser.head_fault Fold.ascii hp (s := s) (e := e') h'
  rw [h1] at h2
  cases h2; rfl

/-- **C03 (part).** The streams (with clean names and a request line which is not too long) which crash the parser are
those with nothing but blanks between a colon and a bare LF, or nothing between the last blank of the request line and a
bare LF, behind a faultless beginning; no other. Missing: C03 wants no such stream to exist, see
`C03_no_panic_violation`. -/
theorem C03_crash_iff_partial (F : Fold) (p : Parser.PState) (hp : Parser.Ready p) (segs : List Bytes)
    (fits : RequestLineFits p.startLine.max segs.flatten) (clean : CleanStream segs.flatten) :
    (Parser.feed F p segs).2.1 = .panic ↔ HeadCrash (Parser.limits p) segs.flatten :=
  (Parser.feed_outcome F p hp segs fits clean).2.2.1

/-- C03, C69: a stream of each kind, for any server whose limits are not smaller than these. -/
def someLimits : Limits := { line := 100, names := 100, values := 100, number := 5, value := 50 }

example : HeadCrash someLimits (b!"GET / " ++ [10]) :=
  .line .GET b!"/" [] (by decide) (by decide) (by decide)

/-- `GET / HTTP/1.1`, without fields. -/
def plainHead : Head :=
  { method := .GET, target := b!"/", query := none, version := b!"HTTP/1.1", crlf := true, fields := [], lastCrlf := true }

theorem plainHead_ok : plainHead.OK :=
  ⟨by decide, by decide, (by intro q h; cases h), ⟨⟨_, 46, .inr (.inl ⟨rfl, rfl⟩)⟩, by decide, by decide⟩, by simp [plainHead]⟩

example : HeadCrash someLimits (b!"GET / HTTP/1.1\r\nA: b\r\nC:  " ++ 10 :: b!"anything") :=
  .fields plainHead _ plainHead_ok (.lit (by decide) .nil) (by decide)
    (.next ⟨b!"A", 1, b!"b", true⟩ _ ⟨by decide, by decide, by decide, by decide, by decide, by decide⟩ (by decide)
      (by decide) (by decide) (by decide) (by decide)
      (.blank b!"C" b!"  " b!"anything" (by decide) (by decide) (by decide) (by decide) (by decide) (by decide)
        (by decide) (by decide) (by decide)))

example : HeadOpen someLimits b!"GET / HTTP/1.1\r\nA: b\r\nConte" :=
  .fields plainHead _ plainHead_ok (.lit (by decide) .nil) (by decide)
    (.next ⟨b!"A", 1, b!"b", true⟩ _ ⟨by decide, by decide, by decide, by decide, by decide, by decide⟩ (by decide)
      (by decide) (by decide) (by decide) (by decide)
      (.name b!"Conte" (by decide) (by decide) (by decide) (by decide)))

example : RequestLineFits someLimits.line b!"GET / HTTP/1.1\r\nA: b\r\nConte" ∧ CleanStream b!"GET / HTTP/1.1\r\nA: b\r\nConte" := by
  have key : ∀ m line rest : Bytes, b!"GET / HTTP/1.1\r\nA: b\r\nConte" = m ++ 32 :: (line ++ 10 :: rest) → 32 ∉ m → 10 ∉ line →
      m = b!"GET" ∧ line = b!"/ HTTP/1.1\r" ∧ rest = b!"A: b\r\nConte" := by
    intro m line rest e h1 h2
    have e1 : b!"GET / HTTP/1.1\r\nA: b\r\nConte" = b!"GET" ++ 32 :: (b!"/ HTTP/1.1\r" ++ 10 :: b!"A: b\r\nConte") := rfl
    obtain ⟨a1, a2⟩ := Parser.cut_unique (e.symm.trans e1) h1 (by decide)
    obtain ⟨a3, a4⟩ := Parser.cut_unique a2 h2 (by decide)
    exact ⟨a1, a3, a4⟩
  refine ⟨⟨by decide, ?_, ?_⟩, ?_⟩
  · intro m line e h1 h2
    have e1 : b!"GET / HTTP/1.1\r\nA: b\r\nConte" = b!"GET" ++ 32 :: (b!"/ HTTP/1.1\r" ++ 10 :: b!"A: b\r\nConte") := rfl
    obtain ⟨_, a2⟩ := Parser.cut_unique (e.symm.trans e1) h1 (by decide)
    rw [a2] at h2; exact absurd h2 (by decide)
  · intro m line rest e h1 h2
    obtain ⟨rfl, rfl, _⟩ := key m line rest e h1 h2
    decide
  · intro m line rest e h1 h2
    obtain ⟨_, _, rfl⟩ := key m line rest e h1 h2
    exact .field b!"A" b!" b\r" b!"Conte" (by decide) (by decide) (by decide) (by decide)
      (.name _ (by decide) (by decide) (by decide))

/-- **C05.** A request line which is longer than allowed (`LongLine`) is refused, whatever comes in it and behind it, however
it is cut into segments, and even if its end never comes. (The limit is at least as long as every method.) -/
theorem C05_long_line_refused (F : Fold) (p : Parser.PState) (hp : Parser.Ready p) (segs : List Bytes)
    (limit : 7 ≤ p.startLine.max) (long : LongLine p.startLine.max segs.flatten) :
    ∃ e ∈ longErrors, (Parser.feed F p segs).2.1 = .error e :=
  And.left <| Parser.method_long F segs p hp.state hp.startLine.2 limit (by simp [hp.startLine.1]) (by simp [hp.startLine.1])
    (by simpa [hp.startLine.1] using long)

/-- C05: a long target, of which nobody knows where it ends. -/
example (n : Nat) : LongLine n (b!"GET /" ++ List.replicate n 97) :=
  .inr ⟨b!"GET", 47 :: List.replicate n 97, rfl, by decide, by simp, by
    intro h
    have := List.mem_of_mem_take h
    simp at this⟩

/-! ### On a connection -/

/-- **C03 (part).** On a new connection, after any sequence of well-formed requests (which are handled as
`C22_pipelining` says) a head as in `HeadCrash`: the server crashes; nobody is told, nothing is written. Missing: C03
wants this not to happen. -/
theorem C03_connection_crash_partial (E : Setup σ ρ) (dec : DecodesChunked E.P) (cfg : Config)
    (size : cfg.bodyMaxSize < 2 ^ 64) (enc : EncToken) (remote : Bytes) (st : ρ) (tame : Tame E st) (cl : Client) (quiet : Quiet cl)
    (post : List (Bytes × Option GoErr)) (ss : List Sending) (ok : ∀ s ∈ ss, SendableWith E.F cfg s)
    (bad : Bytes) (fits : RequestLineFits (headLimits cfg).line bad) (clean : CleanStream bad)
    (crash : HeadCrash (headLimits cfg) bad) (stream : cl.stream = ss.flatMap Sending.bytes ++ bad) :
    ∃ c why vs frames, serve E (newConn E.P cfg enc remote st (followedBy cl post)) = (c, some why) ∧
      c.visits = vs ∧ c.client.written = cl.written ++ frames ∧
      Conversation E cfg.maxEncodingTokens.toNat remote bad post Crash { Encryption := enc } st
        (Serializer.new cfg.responseBuffSize (cfg.defaultHeaders.getD [])) Fields.new cl.wscript ss vs frames why := by
  obtain ⟨vs, frames, why, h1, h2⟩ := serve_conversation E dec (L := headLimits cfg) (limit := cfg.bodyMaxSize.toNat)
    (by unfold maxUint; omega) (remote := remote) bad post Crash
    (by
      intro env c cl1 idle hc q hs
      have hs' : (segs cl1).flatten = bad := by rw [segs_flatten, hs]
      have hline : c.parser.startLine.max = (headLimits cfg).line := by rw [← idle.limits]; rfl
      have hf := (Parser.feed_outcome E.F c.parser idle.ready (segs cl1)
        (by rw [hs', hline]; exact fits) (by rw [hs']; exact clean)).2.2.1.2 (by rw [hs', idle.limits]; exact crash)
      rcases hfd : Parser.feed E.F c.parser (segs cl1) with ⟨p', r, rest⟩
      rw [hfd] at hf
      dsimp only at hf
      subst hf
      obtain ⟨cl', _, _, _, k4, _, k6⟩ := serve_feed E post cl1.size c cl1 p' .panic rest (Nat.le_refl _) hc q hfd nofun
      refine ⟨[], [], .panicked, ⟨?_, ?_, ?_⟩, rfl, rfl, rfl⟩
      · rw [k6]; rfl
      · rw [k6]; simp [finish, go]
      · rw [k6]; simp only [finish, go]; rw [hc, List.append_nil]; exact k4)
    ss { Encryption := enc } (newConn E.P cfg enc remote st (followedBy cl post)) cl tame
    (newConn_idle E cfg enc remote st _) rfl quiet ok stream
  exact ⟨_, why, vs, frames, by rw [← h1.why], by rw [h1.visits]; rfl, h1.written, h2⟩

/-- **C05.** On a new connection, after any sequence of well-formed requests (for which see `C22_pipelining`) a too long
request line: the router is told about it, once, its response is written, and that is all. -/
theorem C05_long_line_connection (E : Setup σ ρ) (dec : DecodesChunked E.P) (cfg : Config)
    (size : cfg.bodyMaxSize < 2 ^ 64) (enc : EncToken) (remote : Bytes) (st : ρ) (tame : Tame E st) (cl : Client) (quiet : Quiet cl)
    (post : List (Bytes × Option GoErr)) (ss : List Sending) (ok : ∀ s ∈ ss, SendableWith E.F cfg s)
    (bad : Bytes) (limit : 7 ≤ (headLimits cfg).line) (long : LongLine (headLimits cfg).line bad)
    (stream : cl.stream = ss.flatMap Sending.bytes ++ bad) :
    ∃ c why vs frames, serve E (newConn E.P cfg enc remote st (followedBy cl post)) = (c, some why) ∧
      c.visits = vs ∧ c.client.written = cl.written ++ frames ∧
      Conversation E cfg.maxEncodingTokens.toNat remote bad post
        (fun env st d pre ws vs frames why => ∃ e ∈ longErrors, Rejection E (headLimits cfg) cfg.maxEncodingTokens.toNat remote bad e env st d pre ws vs frames why) { Encryption := enc } st
        (Serializer.new cfg.responseBuffSize (cfg.defaultHeaders.getD [])) Fields.new cl.wscript ss vs frames why := by
  obtain ⟨vs, frames, why, h1, h2⟩ := serve_conversation E dec (L := headLimits cfg) (limit := cfg.bodyMaxSize.toNat)
    (by unfold maxUint; omega) (remote := remote) bad post
    (fun env st d pre ws vs frames why => ∃ e ∈ longErrors, Rejection E (headLimits cfg) cfg.maxEncodingTokens.toNat remote bad e env st d pre ws vs frames why)
    (by
      intro env c cl1 idle hc q hs
      have hs' : (segs cl1).flatten = bad := by rw [segs_flatten, hs]
      have hline : c.parser.startLine.max = (headLimits cfg).line := by rw [← idle.limits]; rfl
      obtain ⟨e, he, hf⟩ := C05_long_line_refused E.F c.parser idle.ready (segs cl1) (by rw [hline]; exact limit)
        (by rw [hs', hline]; exact long)
      rcases hfd : Parser.feed E.F c.parser (segs cl1) with ⟨p', r, rest⟩
      rw [hfd] at hf
      dsimp only at hf
      subst hf
      obtain ⟨vs, frames, why, k1, k2⟩ := rejected_head E c cl1 hc q idle bad hs p' rest e (pre := c.upgradePreResp) hfd
      exact ⟨vs, frames, why, k1, e, he, k2⟩)
    ss { Encryption := enc } (newConn E.P cfg enc remote st (followedBy cl post)) cl tame
    (newConn_idle E cfg enc remote st _) rfl quiet ok stream
  exact ⟨_, why, vs, frames, by rw [← h1.why], by rw [h1.visits]; rfl, h1.written, h2⟩

/-- **C70.** The same as `C70_unfinished_head` for every head which is faultless so far (`HeadOpen`), whether or not it
could be completed to a well-formed one. -/
theorem C70_open_head (E : Setup σ ρ) (dec : DecodesChunked E.P) (cfg : Config)
    (size : cfg.bodyMaxSize < 2 ^ 64) (enc : EncToken) (remote : Bytes) (st : ρ) (tame : Tame E st) (cl : Client) (quiet : Quiet cl)
    (post : List (Bytes × Option GoErr)) (silent : Silent post) (ss : List Sending) (ok : ∀ s ∈ ss, SendableWith E.F cfg s)
    (part : Bytes) (fits : RequestLineFits (headLimits cfg).line part) (clean : CleanStream part)
    (opened : HeadOpen (headLimits cfg) part) (stream : cl.stream = ss.flatMap Sending.bytes ++ part) :
    ∃ c why vs frames, serve E (newConn E.P cfg enc remote st (followedBy cl post)) = (c, some why) ∧
      c.visits = vs ∧ c.client.written = cl.written ++ frames ∧
      Conversation E cfg.maxEncodingTokens.toNat remote part post (Silence E) { Encryption := enc } st
        (Serializer.new cfg.responseBuffSize (cfg.defaultHeaders.getD [])) Fields.new cl.wscript ss vs frames why := by
  obtain ⟨vs, frames, why, h1, h2⟩ := serve_conversation E dec (L := headLimits cfg) (limit := cfg.bodyMaxSize.toNat)
    (by unfold maxUint; omega) (remote := remote) part post (Silence E)
    (by
      intro env c cl1 idle hc q hs
      have hs' : (segs cl1).flatten = part := by rw [segs_flatten, hs]
      have hline : c.parser.startLine.max = (headLimits cfg).line := by rw [← idle.limits]; rfl
      have hf := (Parser.feed_outcome E.F c.parser idle.ready (segs cl1)
        (by rw [hs', hline]; exact fits) (by rw [hs']; exact clean)).2.2.2.2 (by rw [hs', idle.limits]; exact opened)
      rcases hfd : Parser.feed E.F c.parser (segs cl1) with ⟨p', r, rest⟩
      rw [hfd] at hf
      dsimp only at hf
      subst hf
      obtain ⟨ans, left, more, k1, k2, k3⟩ := serve_silence E silent c cl1 hc q idle.hijacked p' rest hfd
      exact ⟨_, more, _, k1, _, ans, left, rfl, k2, k3, rfl⟩)
    ss { Encryption := enc } (newConn E.P cfg enc remote st (followedBy cl post)) cl tame
    (newConn_idle E cfg enc remote st _) rfl quiet ok stream
  exact ⟨_, why, vs, frames, by rw [← h1.why], by rw [h1.visits]; rfl, h1.written, h2⟩

end Indigo.Props
