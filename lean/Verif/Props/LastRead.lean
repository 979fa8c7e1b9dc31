/-
C97: bytes which come in the same read as an error.
-/
import Verif.Props.ServeWitness

namespace Indigo.Props
open Indigo.Spec Indigo.Serve Indigo.Body
variable {σ ρ : Type}

/-- **C97 is false**, for all servers: after any sequence of well-formed requests, whatever bytes `last` come in the same read as
an error `e` (for instance a whole request together with io.EOF, as connections with TLS deliver it when the client closes its
side after the request), the router is called for the requests before, and never for anything in `last`. -/
theorem C97_lost_request_violation (E : Setup σ ρ) (dec : DecodesChunked E.P) (cfg : Config)
    (size : cfg.bodyMaxSize < 2 ^ 64) (enc : EncToken) (remote : Bytes) (st : ρ) (tame : Tame E st) (cl : Client) (quiet : Quiet cl)
    (ss : List Sending) (ok : ∀ s ∈ ss, SendableWith E.F cfg s) (stream : cl.stream = ss.flatMap Sending.bytes)
    (last : Bytes) (e : GoErr) (more : List (Bytes × Option GoErr))
    (i : Nat) (seen : Request) (world : BC σ) (a : Option (Fields × Request)) (left : Act.World σ)
    (call : (serve E (newConn E.P cfg enc remote st (followedBy cl ((last, some e) :: more)))).1.visits[i]? = some (.request seen world a left)) :
    ∃ s, ss[i]? = some s ∧ Carries E.F cfg.maxEncodingTokens.toNat s.head seen ∧ seen.Path = s.path := by
  obtain ⟨s, h1, h2⟩ := C22_each_its_own E dec cfg size enc remote st tame cl quiet ((last, some e) :: more)
    (by intro ev hev; cases hev; simp) ss ok stream i seen world a left call
  exact ⟨s, h1, h2.carries, h2.path⟩

/-- The same in figures: with `last` a well-formed request and io.EOF, nothing at all is answered on a connection on which nothing
else comes; without io.EOF, or with io.EOF in the next read, the request is answered. -/
example : SendableWith Fold.ascii Config.default posted ∧
    (serve simple (newConn simple.P Config.default 1 b!"1.2.3.4" ⟨report, reportError⟩ { conn := [(posted.bytes, some .eof)] })).1.client.written = [] ∧
    (serve simple (newConn simple.P Config.default 1 b!"1.2.3.4" ⟨report, reportError⟩
      { conn := [(posted.bytes, none), ([], some .eof)] })).1.client.written =
      [b!"HTTP/1.1 200 OK\r\nAccept-Encodings: identity\r\nContent-Type: text/html\r\nContent-Length: 8\r\n\r\n/a hello"] :=
  ⟨posted_ok, by decide +kernel, by decide +kernel⟩

/-- **C97 is false** of bodies: what comes of a body in the same read as an error is not delivered, and if the error is io.EOF,
the body is said to be complete, even if all of it has come. (Any request with a body; any data; any body of a connection.) -/
theorem C97_lost_body_violation (P : ChunkedParser σ) (b : Body σ) (r : Request) (data : Bytes) (e : GoErr) (more : List (Bytes × Option GoErr))
    (body : r.Encoding.Chunked = true ∨ (0 < r.ContentLength ∧ r.ContentLength < 2 ^ 63)) :
    ∃ s', Pieces P (b.initFor r, { conn := (data, some e) :: more }) [[]] e s' := by
  have hf := (initFor_fresh b r).1
  cases hc : r.Encoding.Chunked with
  | true =>
    obtain ⟨i1, -⟩ := initFor_chunked b r hc
    exact ⟨_, .last (s' := _) (by rw [retrieve_chunked P i1 hf]; rfl)⟩
  | false =>
    obtain ⟨i1, i2, -⟩ := initFor_plain b r hc
    rw [hc] at body
    have hlen : (b.initFor r).bytesLeft ≠ 0 := by
      rcases body with h | ⟨h1, h2⟩
      · cases h
      · rw [i2]
        obtain ⟨n, hn⟩ := Int.eq_ofNat_of_zero_le (Int.le_of_lt h1)
        rw [hn, toUint_nat (by omega)]
        omega
    refine ⟨(retrieve P (b.initFor r, { conn := (data, some e) :: more })).2, .last ?_⟩
    rw [retrieve_plain P i1 hf]
    simp only [plainRead, if_neg hlen]
    rfl

/-- A handler which reads the body is told that it is empty, although it has come completely. -/
example : (serve simple (newConn simple.P Config.default 1 b!"1.2.3.4" ⟨report, reportError⟩
      { conn := [(posted.head.render, none), (posted.coded, some .eof)] })).1.client.written =
      [b!"HTTP/1.1 200 OK\r\nAccept-Encodings: identity\r\nContent-Type: text/html\r\nContent-Length: 3\r\n\r\n/a "] := by decide +kernel

/-- **C97, what holds.** If the errors come without data, in reads of their own, then all requests are answered: each of them gets
its call of the router, in order, and after them comes only the notification that the connection is being closed; provided that
serving ends because there is nothing more to be read (and not because of the answers: a panic, a hijacked connection, one which
is not to be kept, or a failing write). -/
theorem C97_separately_partial (E : Setup σ ρ) (dec : DecodesChunked E.P) (cfg : Config)
    (size : cfg.bodyMaxSize < 2 ^ 64) (enc : EncToken) (remote : Bytes) (st : ρ) (tame : Tame E st) (cl : Client) (quiet : Quiet cl)
    (ss : List Sending) (ok : ∀ s ∈ ss, SendableWith E.F cfg s) (stream : cl.stream = ss.flatMap Sending.bytes) (e : GoErr)
    (ended : (serve E (newConn E.P cfg enc remote st (followedBy cl [([], some e)]))).2 = some .readFailed) :
    (serve E (newConn E.P cfg enc remote st (followedBy cl [([], some e)]))).1.visits.length = ss.length + 1 ∧
      ∀ (i : Nat) (s : Sending), ss[i]? = some s → ∃ (seen : Request) (world : BC σ) (f : Fields × Request) (left : Act.World σ),
        (serve E (newConn E.P cfg enc remote st (followedBy cl [([], some e)]))).1.visits[i]? = some (.request seen world (some f) left) ∧
        Carries E.F cfg.maxEncodingTokens.toNat s.head seen ∧ seen.Path = s.path := by
  have silent : Silent [(([] : Bytes), some e)] := by intro ev hev; cases hev; simp
  obtain ⟨h1, h2⟩ := C22_all_served E dec cfg size enc remote st tame cl quiet _ silent ss ok stream ended
  refine ⟨h1, fun i s hs => ?_⟩
  obtain ⟨seen, world, f, left, h3⟩ := h2 i (by
    rcases Nat.lt_or_ge i ss.length with h | h
    · exact h
    · rw [List.getElem?_eq_none h] at hs; cases hs)
  obtain ⟨s', h4, h5⟩ := C22_each_its_own E dec cfg size enc remote st tame cl quiet _ silent ss ok stream i seen world _ left h3
  rw [hs] at h4
  cases h4
  exact ⟨seen, world, f, left, h3, h5.carries, h5.path⟩

example : (∀ s ∈ [posted, chunked], SendableWith Fold.ascii Config.default s) ∧
    (serve simple (newConn simple.P Config.default 1 b!"1.2.3.4" ⟨report, reportError⟩
      (followedBy (arrive [posted.bytes ++ chunked.bytes]) [([], some .eof)]))).2 = some .readFailed := by
  refine ⟨?_, by decide +kernel⟩
  intro s hs
  simp only [List.mem_cons, List.not_mem_nil, or_false] at hs
  rcases hs with rfl | rfl
  · exact posted_ok
  · exact chunked_ok

end Indigo.Props
