/-
C18-C21, C24, C60-C62: request bodies.
-/
import Verif.Proofs.Body3

namespace Indigo.Props
open Indigo.Spec Indigo.Body
variable {σ : Type}

/-- C18: for a request with a Content-Length not above the limit, whatever happened to the body object before
(`b`), however the stream is segmented and whatever the connection does afterwards (`post`): repeated `Retrieve`
yields exactly the declared bytes and then EOF; from then on `Retrieve` reports EOF for ever without touching
the connection, from which exactly the bytes after the body are still to come. -/
theorem C18_sized_body (P : ChunkedParser σ) (b : Body σ) (r : Request) (c : Client) (body after : Bytes)
    (post : List (Bytes × Option GoErr)) (plain : r.Encoding.Chunked = false) (len : r.ContentLength = body.length)
    (fits : body.length ≤ b.maxBodyLen) (int : body.length < 2 ^ 63)
    (stream : c.stream = body ++ after) (quiet : Quiet c) :
    ∃ ds b' c', Pieces P (b.initFor r, followedBy c post) ds .eof (b', followedBy c' post) ∧ ds.flatten = body ∧
      c'.stream = after ∧ Quiet c' ∧ ∀ x : Client, retrieve P (b', x) = (([], some .eof), (b', x)) := by
  obtain ⟨i1, i2, i3, i4, i5⟩ := initFor_plain b r plain
  rw [len, toUint_nat (by omega)] at i2
  obtain ⟨ds, b', c', h1, h2, h3, h4, h5, _⟩ := plain_pieces P c.size (b.initFor r) c body after (Nat.le_refl _) i1 i3
    (by rw [i2, initFor_max]; exact fits) i2 quiet stream
  refine ⟨ds, b', c', pieces_followedBy P post h1 (by simp [GoErr.timeout]), h2, h3, h4, fun x => ?_⟩
  exact retrieve_eof P (by rw [h5])

/-- C18 for the chunked coding, given a decoder meeting its contract. -/
theorem C18_chunked_body (P : ChunkedParser σ) {D} (dec : Decodes P D) (b : Body σ) (r : Request) (c : Client)
    (body after : Bytes) (post : List (Bytes × Option GoErr)) (chunked : r.Encoding.Chunked = true)
    (fits : body.length ≤ b.maxBodyLen) (uint : b.maxBodyLen < 2 ^ 64)
    (stream : D b.parser r.Encoding.HasTrailer c.stream body after) (quiet : Quiet c) :
    ∃ ds b' c', Pieces P (b.initFor r, followedBy c post) ds .eof (b', followedBy c' post) ∧ ds.flatten = body ∧
      c'.stream = after ∧ Quiet c' ∧ b'.parser = P.init ∧
      ∀ x : Client, retrieve P (b', x) = (([], some .eof), (b', x)) := by
  obtain ⟨i1, i2, i3, i4, i5⟩ := initFor_chunked b r chunked
  obtain ⟨ds, b', c', h1, h2, h3, h4, h5, _⟩ := chunked_pieces P dec c.size (b.initFor r) c body after (Nat.le_refl _)
    i1 i3 (by rw [i2, initFor_max]; omega) (by rw [initFor_max]; exact Nat.le_of_lt_succ (by simpa [maxUint] using uint)) (by rw [i4, i5]; exact stream) quiet
  refine ⟨ds, b', c', pieces_followedBy P post h1 (by simp [GoErr.timeout]), h2, h3, h4, by rw [h5], fun x => ?_⟩
  exact retrieve_eof P (by rw [h5])

/-- C18 for the chunked coding as RFC 9112 defines it, with the reference decoder in place of the external one:
the body delivered is the concatenation of the chunks. -/
theorem C18_chunked_coding (b : Body CS) (r : Request) (c : Client) (chunks : List Bytes)
    (coded after : Bytes) (post : List (Bytes × Option GoErr)) (chunked : r.Encoding.Chunked = true)
    (fits : chunks.flatten.length ≤ b.maxBodyLen) (uint : b.maxBodyLen < 2 ^ 64) (ready : b.parser = refParser.init)
    (coding : ChunkedCoding chunks coded) (stream : c.stream = coded ++ after) (quiet : Quiet c) :
    ∃ ds b' c', Pieces refParser (b.initFor r, followedBy c post) ds .eof (b', followedBy c' post) ∧
      ds.flatten = chunks.flatten ∧ c'.stream = after ∧ Quiet c' ∧ b'.parser = refParser.init ∧
      ∀ x : Client, retrieve refParser (b', x) = (([], some .eof), (b', x)) :=
  C18_chunked_body refParser ref_decodes b r c chunks.flatten after post chunked fits uint
    (by rw [ready, stream]; exact crun_coding _ coding after) quiet

/-- Chunked coding of "hello" and " world". -/
def exCoded : Bytes := b!"5" ++ [13, 10] ++ b!"hello" ++ [13, 10] ++ (b!"06" ++ [13, 10] ++ b!" world" ++ [13, 10] ++
  (b!"0" ++ [13, 10] ++ [13, 10]))

example : ChunkedCoding [b!"hello", b!" world"] exCoded :=
  .chunk (by decide) (by decide) (.chunk (by decide) (by decide) (.last (by decide)))

/-- A body object which has already served another request. -/
def usedBody : Body CS :=
  { maxBodyLen := 100, parser := refParser.init, fullBodyBuff := b!"secret", fullCap := 6, eof := true, stashError := some .eof }

example : (({ conn := [(b!"hel", none), (b!"loGET", none)] } : Client).stream = b!"hello" ++ b!"GET") ∧
    (retrieves refParser 3 (usedBody.initFor { ContentLength := 5 },
      { conn := [(b!"hel", none), (b!"loGET", none)] }) =
        [(b!"hel", none), (b!"lo", some .eof), ([], some .eof)]) := by decide

/-- C19: whatever the client announces and sends and however often `Retrieve` is called, no more than the
configured number of bytes is delivered for one request. `P` is arbitrary: not even the decoder is trusted. -/
theorem C19_delivered_within_limit (P : ChunkedParser σ) (b : Body σ) (r : Request) (c : Client) (k : Nat)
    (uint : b.maxBodyLen < 2 ^ 64) :
    ((retrieves P k (b.initFor r, c)).map (fun x => x.1.length)).sum ≤ b.maxBodyLen := by
  have h := retrieves_budget P k (b.initFor r, c) (sane_init b r (Nat.le_of_lt_succ (by simpa [maxUint] using uint)))
  have h2 := budget_le (b.initFor r)
  rw [initFor_max] at h2
  exact Nat.le_trans h h2

/-- C19: a Content-Length above the limit is reported as ErrBodyTooLarge as soon as any data arrive, and not a
single byte is delivered, however often one asks. -/
theorem C19_sized_too_large (P : ChunkedParser σ) (b : Body σ) (r : Request) (c : Client) (n : Nat)
    (plain : r.Encoding.Chunked = false) (len : r.ContentLength = n) (int : n < 2 ^ 63) (large : b.maxBodyLen < n) :
    (∀ k, ((retrieves P k (b.initFor r, c)).map (fun x => x.1.length)).sum = 0) ∧
    (Quiet c → c.stream ≠ [] →
      ∃ s', Pieces P (b.initFor r, c) [[]] (.http Status.ErrBodyTooLarge) s') := by
  obtain ⟨i1, i2, i3, i4, i5⟩ := initFor_plain b r plain
  rw [len, toUint_nat (by omega)] at i2
  refine ⟨fun k => ?_, fun hq hne => ?_⟩
  · have : ∀ (k : Nat) (b : Body σ) (c : Client), b.isChunked = false → b.maxBodyLen < b.bytesLeft →
        ((retrieves P k (b, c)).map (fun x => x.1.length)).sum = 0 := by
      intro k
      induction k with
      | zero => intros; simp [retrieves]
      | succ k ih =>
        intro b c h1 h2
        cases he : b.eof with
        | true =>
          simp only [retrieves, retrieve_eof P (s := (b, c)) he, List.map_cons, List.sum_cons, ih b c h1 h2]
          rfl
        | false =>
          obtain ⟨e, c', hr, _⟩ := plain_too_large P (c := c) h1 he h2
          simp only [retrieves, hr, List.map_cons, List.sum_cons]
          rw [ih _ _ (by unfold checkEOF; split <;> exact h1) (by unfold checkEOF; split <;> exact h2)]
          rfl
    exact this _ _ _ i1 (by rw [initFor_max, i2]; exact large)
  · obtain ⟨e, c', hr, _, he⟩ := plain_too_large P (c := c) i1 i3 (by rw [initFor_max, i2]; exact large)
    rw [he hq hne] at hr
    exact ⟨_, .last hr⟩

/-- C19: a chunked body longer than the limit ends in ErrBodyTooLarge. -/
theorem C19_chunked_too_large (P : ChunkedParser σ) {D} (dec : Decodes P D) (b : Body σ) (r : Request) (c : Client)
    (body after : Bytes) (chunked : r.Encoding.Chunked = true)
    (large : b.maxBodyLen < body.length) (uint : b.maxBodyLen < 2 ^ 64)
    (stream : D b.parser r.Encoding.HasTrailer c.stream body after) (quiet : Quiet c) :
    ∃ ds s', Pieces P (b.initFor r, c) ds (.http Status.ErrBodyTooLarge) s' ∧ ds.flatten.length ≤ b.maxBodyLen := by
  obtain ⟨i1, i2, i3, i4, i5⟩ := initFor_chunked b r chunked
  obtain ⟨ds, s', h⟩ := chunked_too_large P dec c.size (b.initFor r) c body after (Nat.le_refl _) i1 i3
    (by rw [i2]; omega) (by rw [i2, initFor_max]; omega) (by rw [initFor_max]; exact Nat.le_of_lt_succ (by simpa [maxUint] using uint))
    (by rw [i4, i5]; exact stream) quiet
  have h1 := pieces_budget P h (sane_init b r (Nat.le_of_lt_succ (by simpa [maxUint] using uint)))
  have h2 := budget_le (b.initFor r)
  rw [initFor_max] at h2
  exact ⟨ds, s', h, Nat.le_trans h1 h2⟩

example : retrieves refParser 2 (({ usedBody with maxBodyLen := 8 } : Body CS).initFor { Encoding := { Chunked := true } },
    { conn := [(exCoded.take 12, none), (exCoded.drop 12, none)] }) =
      [(b!"hello", none), ([], some (.http Status.ErrBodyTooLarge))] := by decide

example : retrieves refParser 2 (usedBody.initFor { ContentLength := 101 }, { conn := [(b!"x", none)] }) =
      [([], some (.http Status.ErrBodyTooLarge)), ([], some .timeout)] := by decide

/-- C20: for the body of a new request, repeated `Retrieve` yields certain pieces `ds` and ends with a certain
error `e` (`io.EOF` for a complete body), and all other accessors yield the same: `Bytes` and `String` the
concatenation, or the error; `Callback` the pieces; `Read`, whatever the sizes of the buffers, the concatenation
piecemeal, nothing else, and after finitely many reads all of it together with the error; `Discard` nothing, or
the error. They all leave the connection in the same state. The chunked decoder is arbitrary. -/
theorem C20_accessors_agree (P : ChunkedParser σ) (maxAlloc : Nat) (b : Body σ) (r : Request) (c : Client)
    (alloc : r.ContentLength ≤ maxAlloc) (cb : List Bytes → Bytes → Option GoErr) (hcb : ∀ l d, cb l d = none) :
    let s : BC σ := (b.initFor r, c)
    ∃ ds e s', Pieces P s ds e s' ∧
      ((bytes P maxAlloc s).1 = .ok (if e = .eof then (some ds.flatten, none) else (none, some e)) ∧
        (bytes P maxAlloc s).2.2 = s'.2) ∧
      ((string P maxAlloc s).1 = .ok (if e = .eof then (ds.flatten, none) else ([], some e)) ∧
        (string P maxAlloc s).2.2 = s'.2) ∧
      callback P cb (fuel s) [] s = (if e = .eof then (ds, none) else (ds.dropLast, some e), s') ∧
      discard P (fuel s) s = (if e = .eof then none else some e, s') ∧
      (∀ ns, ∃ rest, ds.flatten = ((reads P ns s).1.map (·.1)).flatten ++ rest ∧
        ∀ err ∈ (reads P ns s).1.map (·.2), err = none ∨ (err = some e ∧ rest = [])) ∧
      (∀ ns, (∀ n ∈ ns, 0 < n) → ds.flatten.length + ds.length < ns.length →
        ((reads P ns s).1.map (·.1)).flatten = ds.flatten ∧ (reads P ns s).1.getLast?.map (·.2) = some (some e)) := by
  intro s
  obtain ⟨f1, f2, f3, f4⟩ := initFor_fresh b r
  obtain ⟨ds, e, s', hp⟩ := pieces_total P s
  obtain ⟨b1, b2⟩ := bytes_pieces P maxAlloc (b := b.initFor r) (c := c) hp f1 (by rw [f4]; exact alloc)
  have hba : bytesAnswer ds.flatten e = if e = .eof then (some ds.flatten, none) else (none, some e) := by
    cases e <;> simp [bytesAnswer]
  have hrem : Rem P s ds.flatten e (ds.flatten.length + ds.length) :=
    .inl ⟨f3, ds, s', hp, by rw [show s.1.stashPending = [] from f2]; rfl, Nat.le_refl _⟩
  refine ⟨ds, e, s', hp, ⟨by rw [b1, hba], b2⟩, ⟨?_, ?_⟩, ?_, discard_pieces P hp _ (by simp [fuel]),
    fun ns => (reads_rem P ns hrem).1, ?_⟩
  · rw [(string_eq P maxAlloc s).2, b1, hba]
    by_cases he : e = .eof
    · simp [he]
    · simp [he]
  · rw [(string_eq P maxAlloc s).1]; exact b2
  · have := callback_pieces P hp cb hcb [] (fuel s) (by simp [fuel])
    simpa using this
  · intro ns hn hl
    obtain ⟨⟨rest, h1, h2⟩, h3⟩ := reads_rem P ns hrem
    have h3 := h3 hn hl
    refine ⟨?_, h3⟩
    have hmem : some e ∈ (reads P ns s).1.map (·.2) := by
      cases hg : (reads P ns s).1.getLast? with
      | none => rw [hg] at h3; simp at h3
      | some x =>
        rw [hg] at h3
        simp at h3
        exact List.mem_map.2 ⟨x, List.mem_of_getLast? hg, h3⟩
    rcases h2 _ hmem with h | h
    · simp at h
    · rw [h1, h.2, List.append_nil]

theorem bytesLoop_done (P : ChunkedParser σ) (n : Nat) (s : BC σ) (d : Bytes)
    (h : (bytesLoop P n s).1 = (some d, none)) :
    (bytesLoop P n s).2.1.eof = true ∧ (bytesLoop P n s).2.1.fullBodyBuff = d := by
  induction n generalizing s with
  | zero => simp [bytesLoop] at h
  | succ n ih =>
    unfold bytesLoop at h ⊢
    rcases hr : retrieve P s with ⟨⟨x, err⟩, s'⟩
    rw [hr] at h
    cases err with
    | none => exact ih _ h
    | some e =>
      cases e <;> simp at h
      refine ⟨?_, h⟩
      have := retrieve_eof_after P hr
      exact this

/-- C20: once `Bytes` has returned the body, calling it again (and `String`, any number of times, in any order)
returns the same contents again, and consumes nothing more of the connection. -/
theorem C20_bytes_again (P : ChunkedParser σ) (maxAlloc : Nat) (s : BC σ) (d : Bytes)
    (first : (bytes P maxAlloc s).1 = .ok (some d, none)) :
    let s' := (bytes P maxAlloc s).2
    bytes P maxAlloc s' = (.ok (some d, none), s') ∧ string P maxAlloc s' = (.ok (d, none), s') := by
  intro s'
  have key : s'.1.eof = true ∧ s'.1.fullBodyBuff = d := by
    simp only [s']
    obtain ⟨b, c⟩ := s
    unfold bytes at first ⊢
    simp only at first ⊢
    split at first
    · rename_i he
      rw [if_pos he]
      simp only [Res.ok.injEq, Prod.mk.injEq, Option.some.injEq, and_true] at first
      exact ⟨he, first⟩
    · rename_i he
      rw [if_neg he]
      split at first
      · cases first
      · rename_i hp
        rw [if_neg hp]
        simp only [Res.ok.injEq] at first
        exact bytesLoop_done P _ _ d first
  have hb : bytes P maxAlloc s' = (.ok (some d, none), s') := by
    unfold bytes
    simp only [key.1, if_true, key.2]
  exact ⟨hb, by simp [string, hb]⟩

example : let s : BC CS := (usedBody.initFor { ContentLength := 5 }, { conn := [(b!"hel", none), (b!"loGET", none)] })
    (bytes refParser 1000 s).1 = .ok (some b!"hello", none) := by decide

/-- Fully read, nothing is left for the others: `Discard` after a complete body does nothing. -/
theorem C20_nothing_left (P : ChunkedParser σ) {s s' : BC σ} {ds} (h : Pieces P s ds .eof s') (n : Nat) :
    discard P (n + 1) s' = (none, s') ∧ retrieve P s' = (([], some .eof), s') := by
  have := pieces_eof P h
  exact ⟨by simp [Body.discard, this], retrieve_eof P this⟩

example : (reads refParser [2, 2, 2, 2] (usedBody.initFor { ContentLength := 5 },
      { conn := [(b!"hel", none), (b!"loGET", none)] })).1 =
    [(b!"he", none), (b!"l", none), (b!"lo", some .eof), ([], some .eof)] := by decide

/-- C21 is false: a request whose body has been read to its end by `Retrieve` gets the body of an earlier
request of the connection from `Bytes`. (First request: `Bytes`; second request: `Retrieve`, then `Bytes`.) -/
theorem C21_stale_body_violation :
    let c : Client := { conn := [(b!"secret", none), (b!"abc", none)] }
    let first := calls refParser 1000 [.bytes] ((Body.new refParser 100).initFor { ContentLength := 6 }, c)
    let second := calls refParser 1000 [.retrieve, .bytes] (first.2.1.initFor { ContentLength := 3 }, first.2.2)
    first.1 = [.whole (some b!"secret") none] ∧
    second.1 = [.piece b!"abc" (some .eof), .whole (some b!"secret") none] := by decide

/-- What holds of C21: whatever the connection's body object has been used for before (`b`: any contents of its
buffers and counters, between requests, i.e. with the decoder in its initial state), any sequence of accessor
calls gives the same answers as on a fresh connection, and leaves the connection in the same state - as long as
`Bytes` and `String` are not called for the first time when the body has already been read to its end. -/
theorem C21_own_body_partial (P : ChunkedParser σ) (maxAlloc : Nat) (b : Body σ) (r : Request) (c : Client)
    (ks : List Call) (between : b.parser = P.init) (alloc : r.ContentLength ≤ maxAlloc)
    (inTime : BytesInTime P maxAlloc false (b.initFor r, c) ks) :
    let fresh := Body.new P b.maxBodyLen
    (calls P maxAlloc ks (b.initFor r, c)).1 = (calls P maxAlloc ks (fresh.initFor r, c)).1 ∧
    (calls P maxAlloc ks (b.initFor r, c)).2.2 = (calls P maxAlloc ks (fresh.initFor r, c)).2.2 := by
  intro fresh
  have hs : Sim (b.initFor r) (fresh.initFor r) :=
    sim_init (b := fresh) (by rfl) (by exact between) r
  exact calls_sim P maxAlloc ks false c hs (by rw [(initFor_fresh b r).2.2.2]; exact alloc) (by simp) inTime

/-- In particular: `Bytes` called first is always right. -/
theorem C21_bytes_first_partial (P : ChunkedParser σ) (maxAlloc : Nat) (b : Body σ) (r : Request) (c : Client)
    (ks : List Call) (between : b.parser = P.init) (alloc : r.ContentLength ≤ maxAlloc) :
    (calls P maxAlloc (.bytes :: ks) (b.initFor r, c)).1 =
      (calls P maxAlloc (.bytes :: ks) ((Body.new P b.maxBodyLen).initFor r, c)).1 := by
  have all : ∀ (ks : List Call) (s : BC σ), BytesInTime P maxAlloc true s ks := by
    intro ks
    induction ks with
    | nil => intro s; trivial
    | cons k ks ih => intro s; exact ⟨fun _ => .inr rfl, by simpa using ih _⟩
  exact (C21_own_body_partial P maxAlloc b r c (.bytes :: ks) between alloc
    ⟨fun _ => .inl (initFor_fresh b r).1, by simpa [wantsWhole] using all ks _⟩).1

example : usedBody.parser = refParser.init ∧
    BytesInTime refParser 1000 false (usedBody.initFor { ContentLength := 5 },
      { conn := [(b!"hel", none), (b!"loGET", none)] }) [.retrieve, .string, .read 10, .bytes] := by
  refine ⟨rfl, ?_⟩
  simp only [BytesInTime, wantsWhole]
  decide

/-- C24: for every history of reads and of pushing back a suffix of what has been read last, the consumed bytes
are a prefix of the peer's stream, and exactly the rest is still to come. -/
theorem C24_no_byte_lost {c0 c : Client} {consumed : Bytes} {last : Option Bytes}
    (h : History c0 consumed last c) : consumed ++ c.stream = c0.stream :=
  (history_stream h).1

example : History { conn := [(b!"abc", none), (b!"def", none)] } b!"abc" (some b!"c") { conn := [(b!"def", none)] } := by
  have h1 : History { conn := [(b!"abc", none), (b!"def", none)] } b!"abc" (some b!"abc") { conn := [(b!"def", none)] } :=
    .read .start rfl
  have h2 := History.unread (y := b!"ab") (x := b!"c") (z := b!"ab") h1
  exact .read h2 rfl

/-- C24: what is pushed back is what the next `Read` returns, all of it and nothing else, without touching the connection; if that
is nothing, or once it has been read, `Read` reads from the connection. What had been pushed back before is gone, as documented. -/
theorem C24_read_after_unread (c : Client) (x : Bytes) :
    (x ≠ [] → (c.unread x).read = ((x, none), { c with pending := [] })) ∧
    (c.unread []).read = ({ c with pending := [] } : Client).read ∧
    (∀ d e conn, c.conn = (d, e) :: conn → ({ c with pending := [] } : Client).read = ((d, e), { c with pending := [], conn })) := by
  refine ⟨?_, rfl, ?_⟩
  · intro h
    have : x.length > 0 := List.length_pos_iff.2 h
    simp [Client.unread, Client.read, this]
  · intro d e conn h
    simp [Client.read, h]

example : ((({ pending := b!"x", conn := [(b!"abc", none)] } : Client).unread b!"yz").read.2).read =
    ((b!"abc", none), { conn := [] }) := by decide

/-- C60 is false: the peer declares five bytes, sends three and closes the connection. `Bytes` reports the three
bytes as the body, without an error. -/
theorem C60_truncated_body_violation :
    (bytes refParser 1000 ((Body.new refParser 100).initFor { ContentLength := 5 },
      { conn := [(b!"hel", none), ([], some .eof)] })).1 = .ok (some b!"hel", none) ∧
    (bytes refParser 1000 ((Body.new refParser 100).initFor { Encoding := { Chunked := true } },
      { conn := [(exCoded.take 6, none), ([], some .eof)] })).1 = .ok (some b!"hel", none) := by decide

/-- What holds of C60: if the connection fails with `e` before the declared number of bytes has arrived, `Bytes`
reports `e` - unless `e` is `io.EOF` (the connection closed by the peer). -/
theorem C60_interrupted_body_partial (P : ChunkedParser σ) (maxAlloc : Nat) (b : Body σ) (r : Request) (c : Client)
    (n : Nat) (e : GoErr) (x : Bytes) (post : List (Bytes × Option GoErr))
    (plain : r.Encoding.Chunked = false) (len : r.ContentLength = n)
    (fits : n ≤ b.maxBodyLen) (int : n < 2 ^ 63) (alloc : n ≤ maxAlloc)
    (short : c.stream.length < n) (quiet : Quiet c) (failure : e ≠ .eof) :
    (bytes P maxAlloc (b.initFor r, followedBy c ((x, some e) :: post))).1 = .ok (none, some e) := by
  obtain ⟨i1, i2, i3, i4, i5⟩ := initFor_plain b r plain
  rw [len, toUint_nat (by omega)] at i2
  obtain ⟨ds, b', c', h1, h2⟩ := plain_interrupted P e x c.size (b.initFor r) c (Nat.le_refl _) i1 i3
    (by rw [i2, initFor_max]; exact fits) (by rw [i2]; exact short) quiet post
  rw [(bytes_pieces P maxAlloc h1 i3 (by rw [i4, len]; omega)).1]
  cases e <;> simp [bytesAnswer] at failure ⊢

example : followedBy { conn := [(b!"hel", none)] } [([], some (.other 7))] =
    { conn := [(b!"hel", none), ([], some (.other 7))] } ∧ ({ conn := [(b!"hel", none)] } : Client).stream.length < 5 := by
  decide

/-- C61 is false: with a limit of 100 bytes, a Content-Length of 2^62 makes `Bytes` allocate 2^62 bytes before
anything is checked: it panics. -/
theorem C61_huge_length_violation (maxAlloc : Nat) (h : maxAlloc < 2 ^ 62) (c : Client) :
    (bytes refParser maxAlloc ((Body.new refParser 100).initFor { ContentLength := 2 ^ 62 }, c)).1 = .panic := by
  have hf : (Body.new refParser 100).initFor { ContentLength := 2 ^ 62 } =
      { maxBodyLen := 100, parser := refParser.init, contentLength := 2 ^ 62, bytesLeft := 2 ^ 62 } := by decide
  rw [hf]
  simp only [bytes, Bool.false_eq_true, if_false]
  rw [if_pos ⟨by simp, by omega, by omega⟩]

/-- What holds of C61: with a Content-Length which can be allocated, `Bytes` does not panic. -/
theorem C61_bytes_no_panic_partial (P : ChunkedParser σ) (maxAlloc : Nat) (b : Body σ) (c : Client)
    (alloc : b.contentLength ≤ maxAlloc) : (bytes P maxAlloc (b, c)).1 ≠ .panic := by
  unfold bytes
  simp only
  split
  · simp
  · rw [if_neg (by omega)]; simp

/-- C62 is false for chunked bodies: the body is rejected as too large; discarding the rest of it then takes the
following bytes of the connection for a continuation of that body and succeeds. (Limit 3; the body arrives
completely in one segment; what follows is not part of it.) -/
theorem C62_rejected_body_violation :
    let s : BC CS := ((Body.new refParser 3).initFor { Encoding := { Chunked := true } },
      { conn := [(exCoded, none), (b!"0" ++ [13, 10, 13, 10] ++ b!"GET", none)] })
    let t := (retrieve refParser s).2
    (retrieve refParser s).1 = ([], some (.http Status.ErrBodyTooLarge)) ∧
    (discard refParser (fuel t) t).1 = none ∧ (discard refParser (fuel t) t).2.2.stream = b!"GET" := by decide

/-- What holds of C62: a body of declared length which is too large is never discarded successfully, so the
connection is closed (as long as the connection does not report `io.EOF`, which closes it as well). -/
theorem C62_rejected_sized_body_partial (P : ChunkedParser σ) (b : Body σ) (r : Request) (c : Client) (n : Nat)
    (plain : r.Encoding.Chunked = false) (len : r.ContentLength = n) (int : n < 2 ^ 63) (large : b.maxBodyLen < n)
    (quiet : Quiet c) : ∃ e, (discard P (fuel (b.initFor r, c)) (b.initFor r, c)).1 = some e := by
  obtain ⟨i1, i2, i3, i4, i5⟩ := initFor_plain b r plain
  rw [len, toUint_nat (by omega)] at i2
  exact discard_too_large P i1 i3 (by rw [initFor_max, i2]; exact large) quiet _

end Indigo.Props
