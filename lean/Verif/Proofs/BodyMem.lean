/-
The memory-level model of bodies simulates the one with values, as long as nothing is kept in the stash when the
connection is read.
-/
import Verif.Model.BodyMem
import Verif.Proofs.Memory

namespace Indigo.BodyMem
open ResponseMem (Mem Slice append Valid append_read)
variable {σ : Type}

/-- A piece within the buffer. -/
def Inside (buff : Bytes) : Piece → Prop
  | .part off len => off + len ≤ buff.length
  | .copy _ => True

theorem get_length {buff : Bytes} {p : Piece} (h : Inside buff p) : (p.get buff).length = p.len := by
  cases p with
  | part off len => simp only [Inside] at h; simp [Piece.get, Piece.len]; omega
  | copy b => rfl

theorem get_take (buff : Bytes) (p : Piece) (n : Nat) : (p.take n).get buff = (p.get buff).take n := by
  cases p with
  | part off len => simp [Piece.get, Piece.take, List.take_take]
  | copy b => rfl

theorem get_drop (buff : Bytes) (p : Piece) (n : Nat) : (p.drop n).get buff = (p.get buff).drop n := by
  cases p with
  | part off len => simp [Piece.get, Piece.drop, List.drop_take]
  | copy b => rfl

theorem inside_take {buff : Bytes} {p : Piece} (h : Inside buff p) (n : Nat) : Inside buff (p.take n) := by
  cases p with
  | part off len => simp only [Inside, Piece.take] at h ⊢; omega
  | copy b => trivial

theorem inside_drop {buff : Bytes} {p : Piece} (h : Inside buff p) {n : Nat} (hn : n ≤ p.len) : Inside buff (p.drop n) := by
  cases p with
  | part off len => simp only [Inside, Piece.drop, Piece.len] at h hn ⊢; omega
  | copy b => trivial

theorem drop_len (p : Piece) (n : Nat) : (p.drop n).len = p.len - n := by
  cases p <;> simp [Piece.drop, Piece.len]

theorem inside_nil (buff : Bytes) : Inside buff .nil := by simp [Inside, Piece.nil]

theorem get_nil (buff : Bytes) : Piece.nil.get buff = [] := by simp [Piece.get, Piece.nil]

theorem get_empty {buff : Bytes} {p : Piece} (h : p.len = 0) : p.get buff = [] := by
  cases p with
  | part off len => simp only [Piece.len] at h; simp [Piece.get, h]
  | copy b => simp only [Piece.len] at h; simpa [Piece.get] using h

theorem inside_length {buff buff' : Bytes} (h : buff'.length = buff.length) {p : Piece} (hp : Inside buff p) : Inside buff' p := by
  cases p with
  | part off len => simp only [Inside] at hp ⊢; omega
  | copy b => trivial

/-- The client is the one with values. -/
structure CSim (c : Cl) (v : Client) : Prop where
  pending : c.pending.get c.buff = v.pending
  inside : Inside c.buff c.pending
  conn : c.conn = v.conn
  fits : ∀ ev ∈ c.conn, ev.1.length ≤ c.buff.length

theorem read_sim {c : Cl} {v : Client} (h : CSim c v) :
    c.read.1.1.get c.read.2.buff = v.read.1.1 ∧ c.read.1.2 = v.read.1.2 ∧ Inside c.read.2.buff c.read.1.1 ∧
      CSim c.read.2 v.read.2 ∧ c.read.2.buff.length = c.buff.length := by
  obtain ⟨h1, h2, h3, h4⟩ := h
  have hl : v.pending.length = c.pending.len := by rw [← h1, get_length h2]
  unfold Cl.read Client.read
  rw [hl]
  by_cases hp : c.pending.len > 0
  · rw [if_pos hp, if_pos hp]
    exact ⟨h1, rfl, h2, ⟨get_nil _, inside_nil _, h3, h4⟩, rfl⟩
  · rw [if_neg hp, if_neg hp]
    have h0 : c.pending.len = 0 := by omega
    cases hc : c.conn with
    | nil =>
      rw [hc] at h3
      rw [← h3]
      exact ⟨get_nil _, rfl, inside_nil _, ⟨h1, h2, by rw [hc]; exact h3, by rw [hc]; exact fun _ h => by cases h⟩, rfl⟩
    | cons ev conn =>
      rw [hc] at h3 h4
      rw [← h3]
      have hf := h4 ev (by simp)
      have hlen : (ev.1 ++ c.buff.drop ev.1.length).length = c.buff.length := by simp; omega
      refine ⟨?_, rfl, ?_, ⟨?_, inside_length hlen h2, rfl, ?_⟩, hlen⟩
      · simp [Piece.get]
      · simp [Inside]
      · simp only
        rw [get_empty h0, ← h1, get_empty h0]
      · intro e he
        simp only
        rw [hlen]
        exact h4 e (by simp [he])

theorem unread_sim {c : Cl} {v : Client} {p : Piece} {b : Bytes} (h : CSim c v) (hp : Inside c.buff p) (hb : p.get c.buff = b) :
    CSim (c.unread p) (v.unread b) := ⟨hb, hp, h.conn, h.fits⟩

/-- The body and the client are those with values; about the stash nothing is said. -/
structure BSim (st : St σ) (s : BC σ) : Prop where
  body : s.1 = { st.body with stashPending := s.1.stashPending, fullBodyBuff := st.mem.read st.full, fullCap := s.1.fullCap }
  client : CSim st.cl s.2
  full : Valid st.mem st.full

/-- What a reader has done: the same piece and error as with values, and nothing to the stash and the buffer of `Bytes`. -/
structure Took (st st' : St σ) (s s' : BC σ) (p : Piece) (d : Bytes) : Prop where
  piece : p.get st'.cl.buff = d
  inside : Inside st'.cl.buff p
  sim : BSim st' s'
  stash : st'.stash = st.stash ∧ s'.1.stashPending = s.1.stashPending
  memory : st'.full = st.full ∧ st'.mem = st.mem ∧ st'.cl.buff.length = st.cl.buff.length
  error : st'.body.stashError = st.body.stashError
  content : st'.body.contentLength = st.body.contentLength

theorem plainRead_sim {st : St σ} {s : BC σ} (h : BSim st s) :
    (plainRead st).1.2 = (Body.plainRead s).1.2 ∧
      Took st (plainRead st).2 s (Body.plainRead s).2 (plainRead st).1.1 (Body.plainRead s).1.1 := by
  obtain ⟨b, v⟩ := s
  obtain ⟨hb, hc, hf⟩ := h
  simp only at hb hc
  obtain ⟨r1, r2, r3, r4, r5⟩ := read_sim hc
  have e1 : b.bytesLeft = st.body.bytesLeft := by rw [hb]
  have e2 : b.maxBodyLen = st.body.maxBodyLen := by rw [hb]
  unfold plainRead Body.plainRead
  simp only [e1, e2]
  by_cases h0 : st.body.bytesLeft = 0
  · rw [if_pos h0, if_pos h0]
    exact ⟨rfl, get_nil _, inside_nil _, ⟨hb, hc, hf⟩, ⟨rfl, rfl⟩, ⟨rfl, rfl, rfl⟩, rfl, rfl⟩
  · rw [if_neg h0, if_neg h0]
    generalize st.cl.read = x at r1 r2 r3 r4 r5
    generalize v.read = y at r1 r2 r4
    obtain ⟨⟨p, e⟩, c⟩ := x
    obtain ⟨⟨d, e'⟩, v'⟩ := y
    simp only at r1 r2 r3 r4 r5
    subst r2
    cases e with
    | some e => exact ⟨rfl, get_nil _, inside_nil _, ⟨hb, r4, hf⟩, ⟨rfl, rfl⟩, ⟨rfl, rfl, r5⟩, rfl, rfl⟩
    | none =>
      simp only
      have hlen : d.length = p.len := by rw [← r1, get_length r3]
      rw [hlen]
      split
      · exact ⟨rfl, get_nil _, inside_nil _, ⟨hb, r4, hf⟩, ⟨rfl, rfl⟩, ⟨rfl, rfl, r5⟩, rfl, rfl⟩
      · split
        · rename_i hge
          refine ⟨rfl, ?_, inside_take r3 _, ⟨?_, unread_sim r4 (inside_drop r3 hge) ?_, hf⟩, ⟨rfl, rfl⟩, ⟨rfl, rfl, r5⟩, rfl, rfl⟩
          · simp only [Cl.unread]; rw [get_take, r1]
          · rw [hb]
          · rw [get_drop, r1]
        · refine ⟨rfl, r1, r3, ⟨?_, r4, hf⟩, ⟨rfl, rfl⟩, ⟨rfl, rfl, r5⟩, rfl, rfl⟩
          rw [hb]

theorem chunkedRead_sim {P : ChunkedParser σ} (S : Slicing P) {st : St σ} {s : BC σ} (h : BSim st s) :
    (chunkedRead P S st).1.2 = (Body.chunkedRead P s).1.2 ∧
      Took st (chunkedRead P S st).2 s (Body.chunkedRead P s).2 (chunkedRead P S st).1.1 (Body.chunkedRead P s).1.1 := by
  obtain ⟨b, v⟩ := s
  obtain ⟨hb, hc, hf⟩ := h
  simp only at hb hc
  obtain ⟨r1, r2, r3, r4, r5⟩ := read_sim hc
  have e1 : b.parser = st.body.parser := by rw [hb]
  have e2 : b.hasTrailer = st.body.hasTrailer := by rw [hb]
  have e3 : b.received = st.body.received := by rw [hb]
  have e4 : b.maxBodyLen = st.body.maxBodyLen := by rw [hb]
  unfold chunkedRead Body.chunkedRead
  simp only [e1, e2]
  generalize st.cl.read = x at r1 r2 r3 r4 r5
  generalize v.read = y at r1 r2 r4
  obtain ⟨⟨p, e⟩, c⟩ := x
  obtain ⟨⟨d, e'⟩, v'⟩ := y
  simp only at r1 r2 r3 r4 r5
  subst r2
  cases e with
  | some e => exact ⟨rfl, get_nil _, inside_nil _, ⟨hb, r4, hf⟩, ⟨rfl, rfl⟩, ⟨rfl, rfl, r5⟩, rfl, rfl⟩
  | none =>
    simp only
    have hlen : d.length = p.len := by rw [← r1, get_length r3]
    rw [r1]
    obtain ⟨used, hu, -⟩ := P.suffix st.body.parser d st.body.hasTrailer
    have hin := S.inside st.body.parser d st.body.hasTrailer
    generalize S.chunkAt st.body.parser d st.body.hasTrailer = off at hin
    rcases hx : P.parse st.body.parser d st.body.hasTrailer with ⟨ps, chunk, extra, err⟩
    rw [hx] at hu hin
    simp only at hu hin
    unfold Body.chunkedDone
    simp only [e3, e4, hx]
    split
    · refine ⟨rfl, get_nil _, inside_nil _, ⟨?_, r4, hf⟩, ⟨rfl, rfl⟩, ⟨rfl, rfl, r5⟩, rfl, rfl⟩
      rw [hb]
    · split
      · refine ⟨rfl, get_nil _, inside_nil _, ⟨?_, r4, hf⟩, ⟨rfl, rfl⟩, ⟨rfl, rfl, r5⟩, rfl, rfl⟩
        rw [hb]
      · refine ⟨rfl, ?_, ?_, ⟨?_, unread_sim r4 (inside_drop r3 (by omega)) ?_, hf⟩, ⟨rfl, rfl⟩, ⟨rfl, rfl, r5⟩, rfl, rfl⟩
        · cases off with
          | none => rfl
          | some off =>
            simp only [chunkOf, Cl.unread]
            rw [get_take, get_drop, r1, (hin off rfl).2]
        · cases off with
          | none => trivial
          | some off =>
            simp only [chunkOf, Cl.unread]
            exact inside_take (inside_drop r3 (by have := (hin off rfl).1; omega)) _
        · rw [hb]
        · rw [get_drop, r1]
          have : d.length - extra.length = used.length := by rw [hu]; simp
          rw [this]
          conv => lhs; rw [hu]
          simp

theorem retrieve_sim {P : ChunkedParser σ} (S : Slicing P) {st : St σ} {s : BC σ} (h : BSim st s) :
    (retrieve P S st).1.2 = (Body.retrieve P s).1.2 ∧
      Took st (retrieve P S st).2 s (Body.retrieve P s).2 (retrieve P S st).1.1 (Body.retrieve P s).1.1 := by
  have hb := h.body
  have e1 : s.1.eof = st.body.eof := by rw [hb]
  have e2 : s.1.isChunked = st.body.isChunked := by rw [hb]
  unfold retrieve Body.retrieve
  simp only [e1, e2]
  by_cases h0 : st.body.eof = true
  · rw [if_pos h0, if_pos h0]
    exact ⟨rfl, get_nil _, inside_nil _, h, ⟨rfl, rfl⟩, ⟨rfl, rfl, rfl⟩, rfl, rfl⟩
  · rw [if_neg h0, if_neg h0]
    have key : (if st.body.isChunked = true then chunkedRead P S st else plainRead st).1.2 =
        (if st.body.isChunked = true then Body.chunkedRead P s else Body.plainRead s).1.2 ∧
        Took st (if st.body.isChunked = true then chunkedRead P S st else plainRead st).2 s
          (if st.body.isChunked = true then Body.chunkedRead P s else Body.plainRead s).2
          (if st.body.isChunked = true then chunkedRead P S st else plainRead st).1.1
          (if st.body.isChunked = true then Body.chunkedRead P s else Body.plainRead s).1.1 := by
      split
      · exact chunkedRead_sim S h
      · exact plainRead_sim h
    generalize (if st.body.isChunked = true then chunkedRead P S st else plainRead st) = x at key
    generalize (if st.body.isChunked = true then Body.chunkedRead P s else Body.plainRead s) = y at key
    obtain ⟨⟨p, e⟩, st'⟩ := x
    obtain ⟨⟨d, e'⟩, s'⟩ := y
    obtain ⟨k1, k2, k3, ⟨k4, k5, k6⟩, k7, k8, k9, k10⟩ := key
    simp only at k1 k2 k3 k4 k5 k6 k7 k8 k9 k10
    subst k1
    refine ⟨rfl, k2, k3, ⟨?_, k5, k6⟩, ?_, k8, ?_, ?_⟩
    · simp only [Body.checkEOF]
      split <;> rw [k4]
    · simp only [Body.checkEOF]
      split <;> exact k7
    · simp only [Body.checkEOF]
      split <;> exact k9
    · simp only [Body.checkEOF]
      split <;> exact k10

theorem size_sim {st : St σ} {s : BC σ} (h : BSim st s) : st.size = s.2.size := by
  unfold St.size Client.size
  rw [← h.client.pending, get_length h.client.inside, h.client.conn]

/-- What every call keeps, whatever is in the stash: only the length of the stash is the one with values. -/
structure Sim (st : St σ) (s : BC σ) : Prop extends BSim st s where
  length : st.stash.len = s.1.stashPending.length

/-- The stash is the one with values. -/
def Stash (st : St σ) (s : BC σ) : Prop := st.stash.get st.cl.buff = s.1.stashPending

theorem stash_empty {st : St σ} {s : BC σ} (h : Sim st s) (he : s.1.stashPending = []) : Stash st s := by
  have := h.length
  rw [he] at this
  unfold Stash
  rw [he, get_empty this]

/-- Steps which leave the stash alone. -/
structure Kept (st st' : St σ) (s s' : BC σ) : Prop where
  sim : BSim st' s'
  stash : st'.stash = st.stash ∧ s'.1.stashPending = s.1.stashPending
  content : st'.body.contentLength = st.body.contentLength
  buff : st'.cl.buff.length = st.cl.buff.length

theorem Kept.trans {a b c : St σ} {x y z : BC σ} (h : Kept a b x y) (h' : Kept b c y z) : Kept a c x z :=
  ⟨h'.sim, ⟨h'.stash.1.trans h.stash.1, h'.stash.2.trans h.stash.2⟩, h'.content.trans h.content, h'.buff.trans h.buff⟩

theorem Took.kept {st st' : St σ} {s s' : BC σ} {p : Piece} {d : Bytes} (h : Took st st' s s' p d) : Kept st st' s s' :=
  ⟨h.sim, h.stash, h.content, h.memory.2.2⟩

theorem Kept.sim' {st st' : St σ} {s s' : BC σ} (h : Kept st st' s s') (hs : Sim st s) : Sim st' s' :=
  ⟨h.sim, by rw [h.stash.1, h.stash.2]; exact hs.length⟩

theorem bytesLoop_sim (grow : Nat → Nat → Nat) {P : ChunkedParser σ} (S : Slicing P) : ∀ (fuel : Nat) (st : St σ) (s : BC σ),
    BSim st s →
    (bytesLoop grow P S fuel st).1.1.map (bytesLoop grow P S fuel st).2.mem.read = (Body.bytesLoop P fuel s).1.1 ∧
    (bytesLoop grow P S fuel st).1.2 = (Body.bytesLoop P fuel s).1.2 ∧
    Kept st (bytesLoop grow P S fuel st).2 s (Body.bytesLoop P fuel s).2
  | 0, st, s, h => ⟨rfl, rfl, h, ⟨rfl, rfl⟩, rfl, rfl⟩
  | fuel + 1, st, s, h => by
    obtain ⟨h1, h2⟩ := retrieve_sim S h
    unfold bytesLoop Body.bytesLoop
    generalize retrieve P S st = x at h1 h2
    generalize Body.retrieve P s = y at h1 h2
    obtain ⟨⟨p, e⟩, st'⟩ := x
    obtain ⟨⟨d, e'⟩, s'⟩ := y
    simp only at h1 h2
    subst h1
    obtain ⟨a1, a2⟩ := append_read grow st'.mem st'.full (p.get st'.cl.buff) h2.sim.full
    have hb := h2.sim.body
    have hd := h2.piece
    have hk : Kept st { st' with mem := (append grow st'.mem st'.full (p.get st'.cl.buff)).1, full := (append grow st'.mem st'.full (p.get st'.cl.buff)).2 }
        s ({ s'.1 with fullBodyBuff := s'.1.fullBodyBuff ++ d }, s'.2) := by
      refine ⟨⟨?_, h2.sim.client, a1⟩, h2.stash, h2.content, h2.memory.2.2⟩
      simp only
      rw [a2, hd]
      generalize s'.1 = b at hb
      have e1 : b.fullBodyBuff = st'.mem.read st'.full := by rw [hb]
      rw [← e1]
      rw [hb]
    simp only
    generalize append grow st'.mem st'.full (p.get st'.cl.buff) = a at a1 a2 hk
    cases e with
    | none =>
      obtain ⟨k1, k2, k3⟩ := bytesLoop_sim grow S fuel _ _ hk.sim
      exact ⟨k1, k2, hk.trans k3⟩
    | some e =>
      cases e with
      | eof =>
        refine ⟨?_, rfl, hk⟩
        simp only [Option.map_some]
        rw [a2, hd]
        have e1 : s'.1.fullBodyBuff = st'.mem.read st'.full := by rw [hb]
        rw [e1]
      | _ => exact ⟨rfl, rfl, hk⟩

theorem bytes_sim (grow : Nat → Nat → Nat) {P : ChunkedParser σ} (S : Slicing P) (maxAlloc : Nat) {st : St σ} {s : BC σ} (h : BSim st s)
    (alloc : st.body.contentLength ≤ maxAlloc) :
    ∃ d e s', Body.bytes P maxAlloc s = (.ok (d, e), s') ∧
      (bytes grow P S st).1.1.map (bytes grow P S st).2.mem.read = d ∧ (bytes grow P S st).1.2 = e ∧
      Kept st (bytes grow P S st).2 s s' := by
  have hb := h.body
  have e1 : s.1.eof = st.body.eof := by rw [hb]
  have e2 : s.1.contentLength = st.body.contentLength := by rw [hb]
  have e3 : s.1.fullBodyBuff = st.mem.read st.full := by rw [hb]
  unfold bytes Body.bytes
  simp only [e1, e2]
  by_cases h0 : st.body.eof = true
  · rw [if_pos h0, if_pos h0]
    exact ⟨_, _, _, rfl, by simp [e3], rfl, h, ⟨rfl, rfl⟩, rfl, rfl⟩
  · rw [if_neg h0, if_neg h0, if_neg (by omega)]
    refine ⟨_, _, _, rfl, ?_⟩
    generalize hst' : (if ¬ st.body.isChunked = true ∧ (st.full.cap : Int) < st.body.contentLength then
        ({ st with
          mem := { st.mem with own := st.mem.own ++ [List.replicate st.body.contentLength.toNat 0] }
          full := ⟨.own st.mem.own.length, 0, 0, st.body.contentLength.toNat⟩ } : St σ)
      else { st with full := { st.full with len := 0 } }) = st'
    have hs' : st'.body = st.body ∧ st'.cl = st.cl ∧ st'.stash = st.stash ∧ Valid st'.mem st'.full ∧ st'.mem.read st'.full = [] := by
      rw [← hst']
      split
      · refine ⟨rfl, rfl, rfl, ⟨Nat.zero_le _, ?_⟩, ?_⟩
        · simp [Mem.array]
        · simp [Mem.read]
      · exact ⟨rfl, rfl, rfl, ⟨Nat.zero_le _, h.full.inside⟩, by simp [Mem.read]⟩
    obtain ⟨s1, s2, s3, s4, s5⟩ := hs'
    have hB : BSim st' (s.1.prepared, s.2) := by
      refine ⟨?_, by rw [s2]; exact h.client, s4⟩
      simp only [Body.prepared]
      rw [s5, s1]
      split <;> (simp only; rw [hb])
    have hsz : st'.size = s.2.size := size_sim (s := (s.1.prepared, s.2)) hB
    rw [hsz]
    obtain ⟨k1, k2, k3⟩ := bytesLoop_sim grow S (s.2.size + 2) _ _ hB
    refine ⟨k1, k2, k3.sim, ⟨k3.stash.1.trans s3, k3.stash.2.trans ?_⟩, k3.content.trans (by rw [s1]), k3.buff.trans (by rw [s2])⟩
    simp only [Body.prepared]
    split <;> rfl

theorem callback_sim {P : ChunkedParser σ} (S : Slicing P) (cb : List Bytes → Bytes → Option GoErr) :
    ∀ (fuel : Nat) (seen : List Bytes) (st : St σ) (s : BC σ), BSim st s →
    (callback P S cb fuel seen st).1 = (Body.callback P cb fuel seen s).1 ∧
    Kept st (callback P S cb fuel seen st).2 s (Body.callback P cb fuel seen s).2
  | 0, seen, st, s, h => ⟨rfl, h, ⟨rfl, rfl⟩, rfl, rfl⟩
  | fuel + 1, seen, st, s, h => by
    obtain ⟨h1, h2⟩ := retrieve_sim S h
    unfold callback Body.callback
    generalize retrieve P S st = x at h1 h2
    generalize Body.retrieve P s = y at h1 h2
    obtain ⟨⟨p, e⟩, st'⟩ := x
    obtain ⟨⟨d, e'⟩, s'⟩ := y
    simp only at h1 h2
    subst h1
    simp only [h2.piece]
    cases e with
    | none =>
      simp only
      cases cb seen d with
      | none =>
        obtain ⟨k1, k2⟩ := callback_sim S cb fuel (seen ++ [d]) st' s' h2.sim
        exact ⟨k1, h2.kept.trans k2⟩
      | some e => exact ⟨rfl, h2.kept⟩
    | some e => cases e <;> exact ⟨rfl, h2.kept⟩

theorem discard_sim {P : ChunkedParser σ} (S : Slicing P) :
    ∀ (fuel : Nat) (st : St σ) (s : BC σ), BSim st s →
    (discard P S fuel st).1 = (Body.discard P fuel s).1 ∧
    Kept st (discard P S fuel st).2 s (Body.discard P fuel s).2
  | 0, st, s, h => ⟨rfl, h, ⟨rfl, rfl⟩, rfl, rfl⟩
  | fuel + 1, st, s, h => by
    obtain ⟨h1, h2⟩ := retrieve_sim S h
    have e1 : s.1.eof = st.body.eof := by rw [h.body]
    unfold discard Body.discard
    rw [e1]
    by_cases h0 : st.body.eof = true
    · rw [if_pos h0, if_pos h0]
      exact ⟨rfl, h, ⟨rfl, rfl⟩, rfl, rfl⟩
    rw [if_neg h0, if_neg h0]
    generalize retrieve P S st = x at h1 h2
    generalize Body.retrieve P s = y at h1 h2
    obtain ⟨⟨p, e⟩, st'⟩ := x
    obtain ⟨⟨d, e'⟩, s'⟩ := y
    simp only at h1 h2
    subst h1
    cases e with
    | none =>
      obtain ⟨k1, k2⟩ := discard_sim S fuel st' s' h2.sim
      exact ⟨k1, h2.kept.trans k2⟩
    | some e => cases e <;> exact ⟨rfl, h2.kept⟩

/-- `Read` keeps everything, and gives as many bytes and the same error as with values; and the same bytes, if the stash is the
one with values. The stash must be within the buffer. -/
theorem stashRead_sim {P : ChunkedParser σ} (S : Slicing P) (n : Nat) {st : St σ} {s : BC σ} (h : Sim st s) (hi : Inside st.cl.buff st.stash) :
    (read P S n st).1.1.length = (Body.read P n s).1.1.length ∧ (read P S n st).1.2 = (Body.read P n s).1.2 ∧
    Sim (read P S n st).2 (Body.read P n s).2 ∧ Inside (read P S n st).2.cl.buff (read P S n st).2.stash ∧
    (read P S n st).2.body.contentLength = st.body.contentLength ∧ (read P S n st).2.cl.buff.length = st.cl.buff.length ∧
    (Stash st s → (read P S n st).1.1 = (Body.read P n s).1.1 ∧ Stash (read P S n st).2 (Body.read P n s).2) := by
  have e1 : s.1.stashError = st.body.stashError := by rw [h.body]
  unfold read Body.read
  rw [← h.length, e1]
  generalize hst' : (if st.stash.len = 0 ∧ st.body.stashError = none then
      ({ (retrieve P S st).2 with stash := (retrieve P S st).1.1, body := { (retrieve P S st).2.body with stashError := (retrieve P S st).1.2 } } : St σ)
    else st) = st'
  generalize hs' : (if st.stash.len = 0 ∧ st.body.stashError = none then
      (({ (Body.retrieve P s).2.1 with stashPending := (Body.retrieve P s).1.1, stashError := (Body.retrieve P s).1.2 }, (Body.retrieve P s).2.2) : BC σ)
    else s) = s'
  have key : Sim st' s' ∧ Inside st'.cl.buff st'.stash ∧ (st'.body.contentLength = st.body.contentLength ∧ st'.cl.buff.length = st.cl.buff.length) ∧ (Stash st s → Stash st' s') := by
    rw [← hst', ← hs']
    split
    · obtain ⟨h1, h2⟩ := retrieve_sim S h.toBSim
      refine ⟨⟨⟨?_, h2.sim.client, h2.sim.full⟩, ?_⟩, h2.inside, ⟨h2.content, h2.memory.2.2⟩, fun _ => h2.piece⟩
      · simp only
        rw [h1]
        have := h2.sim.body
        generalize (Body.retrieve P s).2.1 = b at this
        rw [this]
      · simp only
        rw [← h2.piece, get_length h2.inside]
    · exact ⟨h, hi, ⟨rfl, rfl⟩, id⟩
  obtain ⟨k1, k2, k3, k4⟩ := key
  change (((st'.stash.get st'.cl.buff).take n).length = (s'.1.stashPending.take n).length ∧
    (if (st'.stash.drop (min n st'.stash.len)).len = 0 then st'.body.stashError else none) =
      (if (s'.1.stashPending.drop n).length = 0 then s'.1.stashError else none) ∧
    Sim { st' with stash := st'.stash.drop (min n st'.stash.len) } ({ s'.1 with stashPending := s'.1.stashPending.drop n }, s'.2) ∧
    Inside st'.cl.buff (st'.stash.drop (min n st'.stash.len)) ∧ st'.body.contentLength = st.body.contentLength ∧ st'.cl.buff.length = st.cl.buff.length ∧
    (Stash st s → (st'.stash.get st'.cl.buff).take n = s'.1.stashPending.take n ∧
      Stash { st' with stash := st'.stash.drop (min n st'.stash.len) } ({ s'.1 with stashPending := s'.1.stashPending.drop n }, s'.2)))
  have e2 : s'.1.stashError = st'.body.stashError := by rw [k1.body]
  have e3 := k1.length
  have e4 : (st'.stash.drop (min n st'.stash.len)).len = (s'.1.stashPending.drop n).length := by
    rw [drop_len, List.length_drop, ← e3]; omega
  refine ⟨?_, ?_, ⟨⟨?_, k1.client, k1.full⟩, e4⟩, inside_drop k2 (Nat.min_le_right _ _), k3.1, k3.2, fun hst => ⟨?_, ?_⟩⟩
  · rw [List.length_take, List.length_take, get_length k2, e3]
  · rw [e4, e2]
  · simp only
    have := k1.body
    generalize s'.1 = b at this
    rw [this]
  · rw [k4 hst]
  · have := k4 hst
    unfold Stash at this ⊢
    simp only
    rw [get_drop, this]
    rw [e3]
    by_cases hn : n ≤ s'.1.stashPending.length
    · rw [Nat.min_eq_left hn]
    · rw [Nat.min_eq_right (by omega), List.drop_of_length_le (Nat.le_refl _), List.drop_of_length_le (by omega)]

end Indigo.BodyMem
