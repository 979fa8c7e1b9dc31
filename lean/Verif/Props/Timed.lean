/-
C98: the read timeout.
-/
import Verif.Proofs.Timed
import Verif.Props.ServeWitness
import Verif.Spec.Cut

namespace Indigo.Props
open Indigo.Spec Indigo.Serve Indigo.Body Indigo.Timed
variable {σ ρ : Type}

/-- **C98, one read.** A read which begins at the time `now` fails if and only if no byte is there by the deadline, `timeout` later;
it fails at the deadline, not earlier and not later, and no byte is lost. Otherwise it gives the bytes which come next, at least
one of them, not later than the deadline, all of which have arrived by then. -/
theorem C98_deadline (timeout size now : Nat) (room : 0 < size) (arr : Arrivals) :
    (readAt timeout size now arr = (([], some .timeout), now + timeout, arr) ∧ ∀ t, arr.head?.map (·.1) = some t → now + timeout < t) ∨
    ∃ got rest, arr = got ++ rest ∧ got ≠ [] ∧ got.length ≤ size ∧
      ∃ at_, readAt timeout size now arr = ((got.map (·.2), none), at_, rest) ∧ now ≤ at_ ∧ at_ ≤ now + timeout ∧
        (∀ a ∈ got, a.1 ≤ at_) ∧ (now < at_ → arr.head?.map (·.1) = some at_) := by
  cases arr with
  | nil => exact .inl ⟨rfl, by simp⟩
  | cons x rest =>
    obtain ⟨t, b⟩ := x
    by_cases h : now + timeout < t
    · left
      simp only [readAt, if_pos h, true_and]
      intro t' ht'
      cases ht'
      exact h
    · right
      generalize hk : min size (((t, b) :: rest).takeWhile (fun a => decide (a.1 ≤ max now t))).length = k
      have hk0 : 0 < k := by
        rw [← hk]
        have : decide (t ≤ max now t) = true := by simp; omega
        simp only [List.takeWhile, this, List.length_cons]
        omega
      refine ⟨((t, b) :: rest).take k, ((t, b) :: rest).drop k, (List.take_append_drop _ _).symm, ?_, ?_, max now t, ?_, by omega, by omega, ?_, ?_⟩
      · obtain ⟨k', rfl⟩ := Nat.exists_eq_succ_of_ne_zero (n := k) (by omega)
        simp
      · rw [List.length_take]; omega
      · simp only [readAt, if_neg h]
        rw [take_takeWhile_eq, hk]
      · intro a ha
        rw [← hk] at ha
        have := take_takeWhile (p := fun a : Nat × UInt8 => decide (a.1 ≤ max now t)) ((t, b) :: rest) size a ha
        simpa using this
      · intro hlt
        simp only [List.head?_cons, Option.map_some, Option.some.injEq]
        omega

example : readAt 90 4 100 [(50, 1), (60, 2), (200, 3)] = (([1, 2], none), 100, [(200, 3)]) ∧
    readAt 90 4 100 [(190, 3), (190, 4), (191, 5)] = (([3, 4], none), 190, [(191, 5)]) ∧
    readAt 90 4 100 [(191, 5)] = (([], some .timeout), 190, [(191, 5)]) := by decide

/-- **C98.** A client which sends well-formed requests, one after another, and is never silent for as long as the read timeout
(`Lively`), until it has sent all of them: each of them is served, as in `C22_pipelining`, however long all of it takes, and however
long handlers take (`delays`, one for each read). Then nothing comes any more, or too late (`late`: after the time at which those
reads have come back); this is what ends the connection, and what comes too late is not looked at. -/
theorem C98_lively_served (E : Setup σ ρ) (dec : DecodesChunked E.P) (cfg : Config)
    (size : cfg.bodyMaxSize < 2 ^ 64) (room : 0 < cfg.readBufferSize) (enc : EncToken) (remote : Bytes) (st : ρ) (tame : Tame E st)
    (ss : List Sending) (ok : ∀ s ∈ ss, SendableWith E.F cfg s) (start : Nat) (sent late : Arrivals)
    (bytes : sent.map (·.2) = ss.flatMap Sending.bytes) (lively : Lively cfg.readTimeout.toNat start sent)
    (delays : List Nat) (enough : sent.length ≤ delays.length)
    (tooLate : ∀ a ∈ late, finish cfg.readTimeout.toNat cfg.readBufferSize.toNat start (sent ++ late) delays < a.1)
    (writes : List (Option GoErr)) :
    ∃ post, Over post ∧ ∃ c why vs frames,
      serve E (newConn E.P cfg enc remote st (Timed.client cfg start (sent ++ late) delays writes)) = (c, some why) ∧
      c.visits = vs ∧ c.client.written = frames ∧
      Conversation E cfg.maxEncodingTokens.toNat remote [] post (Silence E) { Encryption := enc } st
        (Serializer.new cfg.responseBuffSize (cfg.defaultHeaders.getD [])) Fields.new writes ss vs frames why := by
  obtain ⟨segs, n, h1, h2, -, h3, -⟩ := script_lively cfg.readTimeout.toNat cfg.readBufferSize.toNat (by omega) delays start start sent late
    (Nat.le_refl _) lively enough tooLate
  have hcl : Timed.client cfg start (sent ++ late) delays writes =
      followedBy { conn := segs.map (fun d => (d, none)), wscript := writes } (List.replicate n ([], some .timeout)) := by
    unfold Timed.client followedBy
    rw [h3]
  have hover : Over (List.replicate n (([] : Bytes), some GoErr.timeout)) := by
    intro ev hev
    rw [(List.mem_replicate.1 hev).2]
    simp
  refine ⟨_, hover, ?_⟩
  obtain ⟨c, why, vs, frames, k1, k2, k3, k4⟩ := C22_pipelining E dec cfg size enc remote st tame
    { conn := segs.map (fun d => (d, none)), wscript := writes } (by
      intro ev hev
      obtain ⟨d, -, rfl⟩ := List.mem_map.1 hev
      rfl) (List.replicate n ([], some .timeout)) (by
      intro ev hev
      exact hover ev (List.mem_of_mem_head? hev)) ss ok (by
      simp only [Client.stream, List.nil_append, List.map_map]
      rw [← bytes, ← h2]
      congr 1
      exact List.map_id' segs)
  exact ⟨c, why, vs, frames, by rw [hcl]; exact k1, k2, by simpa using k3, k4⟩

/-- **C98, consequence.** Each request of such a client gets its call of the router, in order, unless an answer ends the connection
(serving ends because of the silence after the requests). -/
theorem C98_all_served (E : Setup σ ρ) (dec : DecodesChunked E.P) (cfg : Config)
    (size : cfg.bodyMaxSize < 2 ^ 64) (room : 0 < cfg.readBufferSize) (enc : EncToken) (remote : Bytes) (st : ρ) (tame : Tame E st)
    (ss : List Sending) (ok : ∀ s ∈ ss, SendableWith E.F cfg s) (start : Nat) (sent late : Arrivals)
    (bytes : sent.map (·.2) = ss.flatMap Sending.bytes) (lively : Lively cfg.readTimeout.toNat start sent)
    (delays : List Nat) (enough : sent.length ≤ delays.length)
    (tooLate : ∀ a ∈ late, finish cfg.readTimeout.toNat cfg.readBufferSize.toNat start (sent ++ late) delays < a.1)
    (writes : List (Option GoErr))
    (ended : (serve E (newConn E.P cfg enc remote st (Timed.client cfg start (sent ++ late) delays writes))).2 = some .readFailed) :
    (serve E (newConn E.P cfg enc remote st (Timed.client cfg start (sent ++ late) delays writes))).1.visits.length = ss.length + 1 ∧
    ∀ (i : Nat) (s : Sending), ss[i]? = some s → ∃ (seen : Request) (world : BC σ) (f : Fields × Request) (left : Act.World σ),
      (serve E (newConn E.P cfg enc remote st (Timed.client cfg start (sent ++ late) delays writes))).1.visits[i]? =
        some (.request seen world (some f) left) ∧ Carries E.F cfg.maxEncodingTokens.toNat s.head seen ∧ seen.Path = s.path := by
  obtain ⟨post, -, c, why, vs, frames, h1, h2, -, h3⟩ := C98_lively_served E dec cfg size room enc remote st tame ss ok start sent late
    bytes lively delays enough tooLate writes
  rw [h1] at ended ⊢
  simp only [Option.some.injEq] at ended
  simp only [h2]
  obtain ⟨k1, k2⟩ := conversation_served h3 ended
  refine ⟨k1, fun i s hs => ?_⟩
  obtain ⟨seen, world, f, left, h4⟩ := k2 i (by
    rcases Nat.lt_or_ge i ss.length with h | h
    · exact h
    · rw [List.getElem?_eq_none h] at hs; cases hs)
  obtain ⟨s', h5, h6⟩ := conversation_delivered (silence_noRequests E) h3 i seen world _ left h4
  rw [hs] at h5
  cases h5
  exact ⟨seen, world, f, left, h4, h6.carries, h6.path⟩

/-- Bytes which come one by one, each `gap` after the one before. -/
def dripping (gap : Nat) : Nat → Bytes → Arrivals
  | _, [] => []
  | since, b :: bs => (since + gap, b) :: dripping gap (since + gap) bs

/-- **C98, how long this may take.** There is no limit on the time a client takes for its requests other than the timeout for each
byte: any bytes may come with a gap of one unit less than the timeout between any two of them, the last one that much times
their number after the beginning, and the client is lively. -/
theorem C98_no_total_limit (timeout : Nat) (positive : 0 < timeout) (start : Nat) (bytes : Bytes) :
    ∃ sent : Arrivals, sent.map (·.2) = bytes ∧ Lively timeout start sent ∧
      ∀ last, sent.getLast? = some last → last.1 = start + bytes.length * (timeout - 1) := by
  refine ⟨dripping (timeout - 1) start bytes, ?_, ?_, ?_⟩
  · induction bytes generalizing start with
    | nil => rfl
    | cons b bs ih => simp [dripping, ih]
  · induction bytes generalizing start with
    | nil => trivial
    | cons b bs ih => exact ⟨by omega, by omega, ih _⟩
  · induction bytes generalizing start with
    | nil => simp [dripping]
    | cons b bs ih =>
      intro last hl
      cases bs with
      | nil =>
        simp only [dripping, List.getLast?_singleton, Option.some.injEq] at hl
        subst hl
        simp
      | cons b' bs' =>
        have := ih (start + (timeout - 1)) last (by simpa [dripping] using hl)
        rw [this]
        simp only [List.length_cons, Nat.succ_mul]
        omega

/-- Two requests with 80 seconds between any two bytes, and a third one which comes too late: what is written with the default
timeout of 90 seconds. -/
example : let sent := dripping 80000000000 0 (posted.bytes ++ gotten.bytes)
    let late : Arrivals := dripping 1 (10 ^ 16) posted.bytes
    Lively Config.default.readTimeout.toNat 0 sent ∧
    sent.map (·.2) = [posted, gotten].flatMap Sending.bytes ∧
    (∀ a ∈ late, finish Config.default.readTimeout.toNat Config.default.readBufferSize.toNat 0 (sent ++ late) (List.replicate 120 5) < a.1) ∧
    sent.length ≤ (List.replicate 120 5).length ∧
    (serve simple (newConn simple.P Config.default 1 b!"1.2.3.4" ⟨report, reportError⟩
      (Timed.client Config.default 0 (sent ++ late) (List.replicate 120 5) []))).1.client.written = [
      b!"HTTP/1.1 200 OK\r\nAccept-Encodings: identity\r\nContent-Type: text/html\r\nContent-Length: 8\r\n\r\n/a hello",
      b!"HTTP/1.0 200 OK\r\nAccept-Encodings: identity\r\nContent-Type: text/html\r\nContent-Length: 2\r\n\r\n/ "] := by
  refine ⟨?_, by decide +kernel, by decide +kernel, by decide +kernel, by decide +kernel⟩
  have : ∀ (bs : Bytes) (since : Nat), Lively 90000000000 since (dripping 80000000000 since bs) := by
    intro bs
    induction bs with
    | nil => intro since; trivial
    | cons b bs ih => intro since; exact ⟨by omega, by omega, ih _⟩
  exact this _ _

end Indigo.Props
