/-
Bodies: chunked bodies, size limits, independence of earlier requests.
-/
import Verif.Proofs.Body

namespace Indigo.Body
open Indigo.Spec
variable {σ : Type}

theorem retrieve_chunked (P : ChunkedParser σ) {b : Body σ} {c : Client} (hc : b.isChunked = true)
    (he : b.eof = false) : retrieve P (b, c) =
      ((chunkedRead P (b, c)).1,
        ((chunkedRead P (b, c)).2.1.checkEOF (chunkedRead P (b, c)).1.2, (chunkedRead P (b, c)).2.2)) := by
  simp [retrieve, hc, he]

theorem adduint_ok {x y : Nat} (hx : x + y ≤ maxUint) : adduint x y = (x + y, false) := by
  simp [adduint]; omega

theorem read_writes {c c1 : Client} {r} (hr : c.read = (r, c1)) : c1.written = c.written ∧ c1.wscript = c.wscript := by
  unfold Client.read at hr
  split at hr
  · simp at hr; rw [← hr.2]; simp
  · split at hr
    · simp at hr; rw [← hr.2]; simp
    · simp at hr; rw [← hr.2]; simp

theorem chunked_pieces (P : ChunkedParser σ) {D} (hP : Decodes P D) (n : Nat) :
    ∀ (b : Body σ) (c : Client) (body after : Bytes),
    c.size ≤ n → b.isChunked = true → b.eof = false → b.received + body.length ≤ b.maxBodyLen →
    b.maxBodyLen ≤ maxUint → D b.parser b.hasTrailer c.stream body after → Quiet c →
    ∃ ds b' c', Pieces P (b, c) ds .eof (b', c') ∧ ds.flatten = body ∧ c'.stream = after ∧ Quiet c' ∧
      b' = { b with parser := P.init, received := b.received + body.length, eof := true } ∧ c'.size ≤ c.size ∧
      c'.written = c.written ∧ c'.wscript = c.wscript := by
  induction n with
  | zero =>
    intro b c body after hn _ _ _ _ hD _
    have hst : c.stream = [] := by
      have : c.pending = [] ∧ c.conn = [] := by
        unfold Client.size at hn
        constructor
        · cases hp : c.pending <;> simp [hp] at hn ⊢
        · cases hp : c.conn <;> simp [hp] at hn ⊢
      simp [Client.stream, this.1, this.2]
    rw [hst] at hD
    exact absurd hD (hP.nonempty _ _ _ _)
  | succ n ih =>
    intro b c body after hn h1 h2 h3 hmax hD hq
    match hr : c.read with
    | ((d, some e), c1) =>
      obtain ⟨_, _, _, hx⟩ := read_err hr
      obtain ⟨_, hx, _⟩ := hx hq
      rw [hx] at hD
      exact absurd hD (hP.nonempty _ _ _ _)
    | ((d, none), c1) =>
      obtain ⟨r1, r2, r3, r4⟩ := read_size hr
      obtain ⟨p1, p2⟩ := read_progress hr
      obtain ⟨w1, w2⟩ := read_writes hr
      obtain ⟨used, hu1, hu2⟩ := P.suffix b.parser d b.hasTrailer
      rcases hpr : P.parse b.parser d b.hasTrailer with ⟨st, chunk, extra, err⟩
      rw [hpr] at hu1
      simp only at hu1
      have hlen : d.length = used.length + extra.length := by
        have := congrArg List.length hu1
        rwa [List.length_append] at this
      have hcr := chunkedRead_ok P hr hpr
      have hcases : (err = none ∧ ∃ body', body = chunk ++ body' ∧ D st b.hasTrailer (extra ++ c1.stream) body' after) ∨
          (err = some .eof ∧ body = chunk ∧ extra ++ c1.stream = after ∧ st = P.init) := by
        by_cases hd : d = []
        · left
          have := hP.empty _ _ _ _ _ hD
          rw [show P.parse b.parser [] b.hasTrailer = (st, chunk, extra, err) by rw [← hpr, hd]] at this
          simp only at this
          obtain ⟨g1, g2, g3⟩ := this
          have hex : extra = [] := by rw [hd] at hlen; simp at hlen; exact List.eq_nil_of_length_eq_zero (by omega)
          refine ⟨g1, body, by simp [g2], ?_⟩
          rw [hex, List.nil_append]
          rw [r3, hd, List.nil_append] at g3
          exact g3
        · rw [r3] at hD
          have := hP.step _ _ _ _ _ _ hD hd
          rw [hpr] at this
          exact this
      rcases hcases with ⟨rfl, body', rfl, hD'⟩ | ⟨rfl, rfl, hafter, rfl⟩
      · have hadd : adduint b.received chunk.length = (b.received + chunk.length, false) :=
          adduint_ok (by simp at h3; omega)
        have hdone : chunkedDone { b with parser := st } c1 chunk extra none =
            ((chunk, none), ({ b with parser := st, received := b.received + chunk.length }, c1.unread extra)) := by
          simp only [chunkedDone, isFatal, hadd]
          simp at h3
          rw [if_neg (by simp), if_neg (by simp; omega)]
        rw [hdone] at hcr
        obtain ⟨u1, u2, u3⟩ := unread_size c1 extra r2
        obtain ⟨ds, b', c', q1, q2, q3, q4, q5, q6, q7, q8⟩ := ih
          { b with parser := st, received := b.received + chunk.length } (c1.unread extra) body' after
          (by
            rw [u1]
            by_cases hd : d = []
            · have := p2 hd
              have : d.length = 0 := by simp [hd]
              omega
            · have := List.length_pos_iff.2 (hu2 hd)
              omega)
          h1 h2 (by simp at h3 ⊢; omega) hmax (by rw [u2]; exact hD') (u3 (r4 hq))
        refine ⟨chunk :: ds, b', c', .more ?_ q1, by simp [q2], q3, q4, ?_, by omega, by rw [q7]; exact w1, by rw [q8]; exact w2⟩
        · rw [retrieve_chunked P h1 h2, hcr]; simp [checkEOF]
        · rw [q5]; simp; omega
      · have hadd : adduint b.received body.length = (b.received + body.length, false) := adduint_ok (by omega)
        have hdone : chunkedDone { b with parser := P.init } c1 body extra (some .eof) =
            ((body, some .eof), ({ b with parser := P.init, received := b.received + body.length }, c1.unread extra)) := by
          simp only [chunkedDone, isFatal, hadd]
          rw [if_neg (by simp), if_neg (by simp; omega)]
        rw [hdone] at hcr
        obtain ⟨u1, u2, u3⟩ := unread_size c1 extra r2
        refine ⟨[body], _, c1.unread extra, .last ?_, by simp, by rw [u2]; exact hafter, u3 (r4 hq), rfl, ?_, w1, w2⟩
        · rw [retrieve_chunked P h1 h2, hcr]; simp [checkEOF]
        · rw [u1]; omega

/-- A chunked body longer than the limit ends in `ErrBodyTooLarge`. -/
theorem chunked_too_large (P : ChunkedParser σ) {D} (hP : Decodes P D) (n : Nat) :
    ∀ (b : Body σ) (c : Client) (body after : Bytes),
    c.size ≤ n → b.isChunked = true → b.eof = false → b.received ≤ b.maxBodyLen →
    b.maxBodyLen < b.received + body.length →
    b.maxBodyLen ≤ maxUint → D b.parser b.hasTrailer c.stream body after → Quiet c →
    ∃ ds s', Pieces P (b, c) ds (.http Status.ErrBodyTooLarge) s' := by
  induction n with
  | zero =>
    intro b c body after hn _ _ _ _ _ hD _
    have hst : c.stream = [] := by
      have : c.pending = [] ∧ c.conn = [] := by
        unfold Client.size at hn
        constructor
        · cases hp : c.pending <;> simp [hp] at hn ⊢
        · cases hp : c.conn <;> simp [hp] at hn ⊢
      simp [Client.stream, this.1, this.2]
    rw [hst] at hD
    exact absurd hD (hP.nonempty _ _ _ _)
  | succ n ih =>
    intro b c body after hn h1 h2 h3 hbig hmax hD hq
    match hr : c.read with
    | ((d, some e), c1) =>
      obtain ⟨_, _, _, hx⟩ := read_err hr
      obtain ⟨_, hx, _⟩ := hx hq
      rw [hx] at hD
      exact absurd hD (hP.nonempty _ _ _ _)
    | ((d, none), c1) =>
      obtain ⟨r1, r2, r3, r4⟩ := read_size hr
      obtain ⟨p1, p2⟩ := read_progress hr
      obtain ⟨used, hu1, hu2⟩ := P.suffix b.parser d b.hasTrailer
      rcases hpr : P.parse b.parser d b.hasTrailer with ⟨st, chunk, extra, err⟩
      rw [hpr] at hu1
      simp only at hu1
      have hlen : d.length = used.length + extra.length := by
        have := congrArg List.length hu1
        rwa [List.length_append] at this
      have hcr := chunkedRead_ok P hr hpr
      have hcases : (err = none ∧ ∃ body', body = chunk ++ body' ∧ D st b.hasTrailer (extra ++ c1.stream) body' after) ∨
          (err = some .eof ∧ body = chunk) := by
        by_cases hd : d = []
        · left
          have := hP.empty _ _ _ _ _ hD
          rw [show P.parse b.parser [] b.hasTrailer = (st, chunk, extra, err) by rw [← hpr, hd]] at this
          simp only at this
          obtain ⟨g1, g2, g3⟩ := this
          have hex : extra = [] := by rw [hd] at hlen; simp at hlen; exact List.eq_nil_of_length_eq_zero (by omega)
          refine ⟨g1, body, by simp [g2], ?_⟩
          rw [hex, List.nil_append]
          rw [r3, hd, List.nil_append] at g3
          exact g3
        · rw [r3] at hD
          have := hP.step _ _ _ _ _ _ hD hd
          rw [hpr] at this
          rcases this with h | ⟨g1, g2, _⟩
          · exact .inl h
          · exact .inr ⟨g1, g2⟩
      have hfat : isFatal err = false := by
        rcases hcases with ⟨rfl, _⟩ | ⟨rfl, _⟩ <;> rfl
      by_cases hov : b.received + chunk.length ≤ b.maxBodyLen
      · have hadd : adduint b.received chunk.length = (b.received + chunk.length, false) :=
          adduint_ok (by omega)
        rcases hcases with ⟨rfl, body', rfl, hD'⟩ | ⟨rfl, rfl⟩
        · have hdone : chunkedDone { b with parser := st } c1 chunk extra none =
              ((chunk, none), ({ b with parser := st, received := b.received + chunk.length }, c1.unread extra)) := by
            simp only [chunkedDone, isFatal, hadd]
            rw [if_neg (by simp), if_neg (by simp; omega)]
          rw [hdone] at hcr
          obtain ⟨u1, u2, u3⟩ := unread_size c1 extra r2
          obtain ⟨ds, s', q1⟩ := ih
            { b with parser := st, received := b.received + chunk.length } (c1.unread extra) body' after
            (by
              rw [u1]
              by_cases hd : d = []
              · have := p2 hd
                have : d.length = 0 := by simp [hd]
                omega
              · have := List.length_pos_iff.2 (hu2 hd)
                omega)
            h1 h2 (by simp; omega) (by simp at hbig ⊢; omega) hmax (by rw [u2]; exact hD') (u3 (r4 hq))
          refine ⟨chunk :: ds, s', .more ?_ q1⟩
          rw [retrieve_chunked P h1 h2, hcr]; simp [checkEOF]
        · omega
      · have hdone : chunkedDone { b with parser := st } c1 chunk extra err =
            (([], some (.http Status.ErrBodyTooLarge)), ({ b with parser := st }, c1)) := by
          simp only [chunkedDone, hfat]
          rw [if_neg (by simp), if_pos ?_]
          by_cases hu : b.received + chunk.length ≤ maxUint
          · rw [adduint_ok hu]; right; simp; omega
          · left; simp [adduint]; omega
        refine ⟨[[]], ({ b with parser := st }, c1), .last ?_⟩
        rw [retrieve_chunked P h1 h2, hcr, hdone]
        simp [checkEOF]

/-! ### Budget -/

/-- Number of bytes a body may still deliver. -/
def budget (b : Body σ) : Nat :=
  if b.isChunked then b.maxBodyLen - b.received
  else if b.bytesLeft > b.maxBodyLen then 0 else b.bytesLeft

/-- The limit is a `uint`, and the count of chunked bytes is within it. -/
def Sane (b : Body σ) : Prop := b.maxBodyLen ≤ maxUint ∧ (b.isChunked = true → b.received ≤ b.maxBodyLen)

theorem budget_le (b : Body σ) : budget b ≤ b.maxBodyLen := by
  unfold budget; split
  · omega
  · split <;> omega

theorem retrieve_budget (P : ChunkedParser σ) (b : Body σ) (c : Client) (h : Sane b) :
    (retrieve P (b, c)).1.1.length + budget (retrieve P (b, c)).2.1 ≤ budget b ∧
      Sane (retrieve P (b, c)).2.1 := by
  have hck : ∀ (b : Body σ) e, budget (b.checkEOF e) = budget b ∧ (Sane (b.checkEOF e) ↔ Sane b) := by
    intro b e; unfold checkEOF; split <;> exact ⟨rfl, Iff.rfl⟩
  cases he : b.eof with
  | true => rw [retrieve_eof P (by exact he)]; simp [h]
  | false =>
    cases hc : b.isChunked with
    | true =>
      rw [retrieve_chunked P hc he]
      simp only [(hck _ _).1, (hck _ _).2]
      match hr : c.read with
      | ((d, some e), c1) => rw [chunkedRead_err P hr]; simp [h]
      | ((d, none), c1) =>
        rcases hpr : P.parse b.parser d b.hasTrailer with ⟨st, chunk, extra, err⟩
        rw [chunkedRead_ok P hr hpr]
        unfold chunkedDone
        split
        · exact ⟨by simp [budget, hc], h⟩
        · split
          · exact ⟨by simp [budget, hc], h⟩
          · rename_i hx
            simp only [not_or] at hx
            obtain ⟨hx1, hx2⟩ := hx
            have hrm := h.2 hc
            have hmx := h.1
            have hle : b.received + chunk.length ≤ maxUint := by
              simp [adduint] at hx1
              omega
            rw [adduint_ok hle] at hx2 ⊢
            simp only at hx2 ⊢
            refine ⟨by simp [budget, hc]; omega, h.1, fun _ => by simp; omega⟩
    | false =>
      rw [retrieve_plain P hc he]
      simp only [(hck _ _).1, (hck _ _).2]
      unfold plainRead
      simp only
      split
      · exact ⟨by simp, h⟩
      · split
        · exact ⟨by simp, h⟩
        · split
          · exact ⟨by simp, h⟩
          · rename_i hmx
            split
            · rename_i hd
              refine ⟨by simp [budget, hc, hmx]; omega, h.1, by simp [hc]⟩
            · rename_i hd
              refine ⟨?_, h.1, by simp [hc]⟩
              simp [budget, hc]
              rw [if_neg (by omega), if_neg (by omega)]
              omega

theorem retrieves_budget (P : ChunkedParser σ) (k : Nat) : ∀ (s : BC σ), Sane s.1 →
    ((retrieves P k s).map (fun r => r.1.length)).sum ≤ budget s.1 := by
  induction k with
  | zero => intro s _; simp [retrieves]
  | succ k ih =>
    intro s hs
    obtain ⟨b, c⟩ := s
    obtain ⟨h1, h2⟩ := retrieve_budget P b c hs
    have := ih (retrieve P (b, c)).2 h2
    simp only [retrieves, List.map_cons, List.sum_cons]
    omega

theorem pieces_budget (P : ChunkedParser σ) {s s' : BC σ} {ds e} (h : Pieces P s ds e s') (hs : Sane s.1) :
    ds.flatten.length ≤ budget s.1 := by
  induction h with
  | @last s d e s' hr =>
    have := (retrieve_budget P s.1 s.2 hs).1
    rw [show (s.1, s.2) = s from rfl, hr] at this
    simp at this ⊢; omega
  | @more s d s1 ds e s' hr _ ih =>
    have := retrieve_budget P s.1 s.2 hs
    rw [show (s.1, s.2) = s from rfl, hr] at this
    have := ih this.2
    simp at *
    omega

theorem sane_init (b : Body σ) (r : Request) (h : b.maxBodyLen ≤ maxUint) : Sane (b.initFor r) := by
  unfold initFor
  cases r.Encoding.Chunked <;> simp [Sane, h]

theorem initFor_max (b : Body σ) (r : Request) : (b.initFor r).maxBodyLen = b.maxBodyLen := by
  unfold initFor
  cases r.Encoding.Chunked <;> simp

/-! ### Independence of earlier requests -/

/-- Two bodies agree on everything that matters for the current request, except the buffer of `Bytes`. -/
structure Sim (a b : Body σ) : Prop where
  max : a.maxBodyLen = b.maxBodyLen
  chunked : a.isChunked = b.isChunked
  parser : a.parser = b.parser
  length : a.contentLength = b.contentLength
  eof : a.eof = b.eof
  pending : a.stashPending = b.stashPending
  error : a.stashError = b.stashError
  left : a.isChunked = false → a.bytesLeft = b.bytesLeft
  received : a.isChunked = true → a.received = b.received ∧ a.hasTrailer = b.hasTrailer

theorem sim_init {a b : Body σ} (h1 : a.maxBodyLen = b.maxBodyLen) (h2 : a.parser = b.parser) (r : Request) :
    Sim (a.initFor r) (b.initFor r) := by
  unfold initFor
  cases hc : r.Encoding.Chunked <;> constructor <;> simp [h1, h2]

theorem sim_checkEOF {a b : Body σ} (h : Sim a b) (e : Option GoErr) : Sim (a.checkEOF e) (b.checkEOF e) := by
  unfold checkEOF
  split
  · exact ⟨h.max, h.chunked, h.parser, h.length, rfl, h.pending, h.error, h.left, h.received⟩
  · exact h

theorem sim_full {a b : Body σ} (h : Sim a b) (f g : Bytes) (k l : Nat) :
    Sim { a with fullBodyBuff := f, fullCap := k } { b with fullBodyBuff := g, fullCap := l } :=
  ⟨h.max, h.chunked, h.parser, h.length, h.eof, h.pending, h.error, h.left, h.received⟩

theorem sim_stash {a b : Body σ} (h : Sim a b) (f : Bytes) (e : Option GoErr) :
    Sim { a with stashPending := f, stashError := e } { b with stashPending := f, stashError := e } :=
  ⟨h.max, h.chunked, h.parser, h.length, h.eof, rfl, rfl, h.left, h.received⟩

/-- Same answer, related states. -/
def SimOut {α : Type} (x y : α × BC σ) : Prop := x.1 = y.1 ∧ x.2.2 = y.2.2 ∧ Sim x.2.1 y.2.1

theorem plainRead_sim {a b : Body σ} (c : Client) (h : Sim a b) (hc : a.isChunked = false) :
    SimOut (plainRead (a, c)) (plainRead (b, c)) := by
  have hl := h.left hc
  have hm := h.max
  simp only [plainRead, hl, hm]
  by_cases h0 : b.bytesLeft = 0
  · simp only [h0, if_true]; first | exact ⟨rfl, rfl, h⟩ | exact ⟨rfl, rfl, ⟨rfl, h.chunked, h.parser, h.length, h.eof, h.pending, h.error, fun _ => rfl, h.received⟩⟩
  · simp only [h0, if_false]
    match hr : c.read with
    | ((d, some e), c1) => first | exact ⟨rfl, rfl, h⟩ | exact ⟨rfl, rfl, ⟨rfl, h.chunked, h.parser, h.length, h.eof, h.pending, h.error, fun _ => rfl, h.received⟩⟩
    | ((d, none), c1) =>
      simp only
      split
      · first | exact ⟨rfl, rfl, h⟩ | exact ⟨rfl, rfl, ⟨rfl, h.chunked, h.parser, h.length, h.eof, h.pending, h.error, fun _ => rfl, h.received⟩⟩
      · split
        · exact ⟨rfl, rfl, ⟨by first | exact h.max | rfl, h.chunked, h.parser, h.length, h.eof, h.pending, h.error, fun _ => rfl, h.received⟩⟩
        · exact ⟨rfl, rfl, ⟨by first | exact h.max | rfl, h.chunked, h.parser, h.length, h.eof, h.pending, h.error, fun _ => rfl, h.received⟩⟩

theorem chunkedRead_sim (P : ChunkedParser σ) {a b : Body σ} (c : Client) (h : Sim a b) (hc : a.isChunked = true) :
    SimOut (chunkedRead P (a, c)) (chunkedRead P (b, c)) := by
  obtain ⟨hrec, htr⟩ := h.received hc
  match hr : c.read with
  | ((d, some e), c1) => rw [chunkedRead_err P hr, chunkedRead_err P hr]; first | exact ⟨rfl, rfl, h⟩ | exact ⟨rfl, rfl, ⟨rfl, h.chunked, h.parser, h.length, h.eof, h.pending, h.error, fun _ => rfl, h.received⟩⟩
  | ((d, none), c1) =>
    rcases hpr : P.parse b.parser d b.hasTrailer with ⟨st, chunk, extra, err⟩
    have hpr' : P.parse a.parser d a.hasTrailer = (st, chunk, extra, err) := by rw [h.parser, htr]; exact hpr
    rw [chunkedRead_ok P hr hpr, chunkedRead_ok P hr hpr']
    simp only [chunkedDone, hrec, h.max]
    split
    · exact ⟨rfl, rfl, ⟨by first | exact h.max | rfl, h.chunked, rfl, h.length, h.eof, h.pending, h.error, h.left, by first | exact h.received | exact fun _ => ⟨rfl, htr⟩⟩⟩
    · split
      · exact ⟨rfl, rfl, ⟨by first | exact h.max | rfl, h.chunked, rfl, h.length, h.eof, h.pending, h.error, h.left, by first | exact h.received | exact fun _ => ⟨rfl, htr⟩⟩⟩
      · exact ⟨rfl, rfl, ⟨by first | exact h.max | rfl, h.chunked, rfl, h.length, h.eof, h.pending, h.error, h.left, fun _ => ⟨rfl, htr⟩⟩⟩

theorem retrieve_sim (P : ChunkedParser σ) {a b : Body σ} (c : Client) (h : Sim a b) :
    SimOut (retrieve P (a, c)) (retrieve P (b, c)) := by
  cases he : a.eof with
  | true =>
    rw [retrieve_eof P (by exact he), retrieve_eof P (by rw [← h.eof]; exact he)]
    exact ⟨rfl, rfl, h⟩
  | false =>
    cases hc : a.isChunked with
    | true =>
      rw [retrieve_chunked P hc he, retrieve_chunked P (h.chunked ▸ hc) (h.eof ▸ he)]
      obtain ⟨h1, h2, h3⟩ := chunkedRead_sim P c h hc
      exact ⟨h1, h2, by simp only [h1]; exact sim_checkEOF h3 _⟩
    | false =>
      rw [retrieve_plain P hc he, retrieve_plain P (h.chunked ▸ hc) (h.eof ▸ he)]
      obtain ⟨h1, h2, h3⟩ := plainRead_sim c h hc
      exact ⟨h1, h2, by simp only [h1]; exact sim_checkEOF h3 _⟩

theorem bytesLoop_sim (P : ChunkedParser σ) (n : Nat) : ∀ {a b : Body σ} (c : Client), Sim a b →
    a.fullBodyBuff = b.fullBodyBuff → SimOut (bytesLoop P n (a, c)) (bytesLoop P n (b, c)) ∧
      (bytesLoop P n (a, c)).2.1.fullBodyBuff = (bytesLoop P n (b, c)).2.1.fullBodyBuff := by
  induction n with
  | zero => intro a b c h hf; exact ⟨⟨rfl, rfl, h⟩, hf⟩
  | succ n ih =>
    intro a b c h hf
    obtain ⟨h1, h2, h3⟩ := retrieve_sim P c h
    rcases hra : retrieve P (a, c) with ⟨⟨d, err⟩, a', c1⟩
    rcases hrb : retrieve P (b, c) with ⟨⟨d', err'⟩, b', c2⟩
    have ka := retrieve_keeps P hra
    have kb := retrieve_keeps P hrb
    rw [hra, hrb] at h1 h2 h3
    simp only [Prod.mk.injEq] at h1 h2 h3
    obtain ⟨rfl, rfl⟩ := h1
    subst h2
    have hf' : a'.fullBodyBuff = b'.fullBodyBuff := by
      simp only [aux, Aux.mk.injEq] at ka kb
      rw [ka.1, kb.1, hf]
    have hs' : Sim { a' with fullBodyBuff := a'.fullBodyBuff ++ d } { b' with fullBodyBuff := b'.fullBodyBuff ++ d } :=
      sim_full h3 _ _ a'.fullCap b'.fullCap
    simp only [bytesLoop, hra, hrb]
    cases err with
    | none => exact ih c1 hs' (by simp [hf'])
    | some e =>
      have hs'' : Sim { a' with fullBodyBuff := b'.fullBodyBuff ++ d } { b' with fullBodyBuff := b'.fullBodyBuff ++ d } := by
        rw [← hf'] at hs' ⊢; exact hs'
      cases e <;> simp only [hf'] <;> exact ⟨⟨rfl, rfl, hs''⟩, trivial⟩

theorem callback_sim (P : ChunkedParser σ) (cb : List Bytes → Bytes → Option GoErr) (n : Nat) :
    ∀ (seen : List Bytes) {a b : Body σ} (c : Client), Sim a b →
    SimOut (callback P cb n seen (a, c)) (callback P cb n seen (b, c)) ∧
      (callback P cb n seen (a, c)).2.1.fullBodyBuff = a.fullBodyBuff := by
  induction n with
  | zero => intro seen a b c h; exact ⟨⟨rfl, rfl, h⟩, rfl⟩
  | succ n ih =>
    intro seen a b c h
    obtain ⟨h1, h2, h3⟩ := retrieve_sim P c h
    rcases hra : retrieve P (a, c) with ⟨⟨d, err⟩, a', c1⟩
    rcases hrb : retrieve P (b, c) with ⟨⟨d', err'⟩, b', c2⟩
    have ka := retrieve_keeps P hra
    simp only [aux, Aux.mk.injEq] at ka
    rw [hra, hrb] at h1 h2 h3
    simp only [Prod.mk.injEq] at h1 h2 h3
    obtain ⟨rfl, rfl⟩ := h1
    subst h2
    simp only [callback, hra, hrb]
    cases err with
    | none =>
      simp only
      cases hcb : cb seen d with
      | none =>
        obtain ⟨i1, i2⟩ := ih (seen ++ [d]) c1 h3
        exact ⟨i1, by rw [i2]; exact ka.1⟩
      | some e => exact ⟨⟨rfl, rfl, h3⟩, ka.1⟩
    | some e => cases e <;> exact ⟨⟨rfl, rfl, h3⟩, ka.1⟩

theorem discard_sim (P : ChunkedParser σ) (n : Nat) : ∀ {a b : Body σ} (c : Client), Sim a b →
    SimOut (discard P n (a, c)) (discard P n (b, c)) ∧ (discard P n (a, c)).2.1.fullBodyBuff = a.fullBodyBuff := by
  induction n with
  | zero => intro a b c h; exact ⟨⟨rfl, rfl, h⟩, rfl⟩
  | succ n ih =>
    intro a b c h
    obtain ⟨h1, h2, h3⟩ := retrieve_sim P c h
    rcases hra : retrieve P (a, c) with ⟨⟨d, err⟩, a', c1⟩
    rcases hrb : retrieve P (b, c) with ⟨⟨d', err'⟩, b', c2⟩
    have ka := retrieve_keeps P hra
    simp only [aux, Aux.mk.injEq] at ka
    rw [hra, hrb] at h1 h2 h3
    simp only [Prod.mk.injEq] at h1 h2 h3
    obtain ⟨rfl, rfl⟩ := h1
    subst h2
    simp only [discard, hra, hrb, h.eof]
    split
    · exact ⟨⟨rfl, rfl, h⟩, by first | trivial | rfl⟩
    · cases err with
      | none =>
        obtain ⟨i1, i2⟩ := ih c1 h3
        exact ⟨i1, by rw [i2]; exact ka.1⟩
      | some e => cases e <;> exact ⟨⟨rfl, rfl, h3⟩, ka.1⟩

theorem copyOut_sim (n : Nat) {a b : Body σ} (c : Client) (h : Sim a b) :
    SimOut (copyOut n (a, c)) (copyOut n (b, c)) ∧ (copyOut n (a, c)).2.1.fullBodyBuff = a.fullBodyBuff := by
  have h1 := h.pending
  have h2 := h.error
  simp only [copyOut, h1, h2]
  refine ⟨⟨rfl, rfl, ?_⟩, trivial⟩
  exact ⟨h.max, h.chunked, h.parser, h.length, h.eof, rfl, by first | exact h.error | rfl, h.left, h.received⟩

theorem read_sim (P : ChunkedParser σ) (n : Nat) {a b : Body σ} (c : Client) (h : Sim a b) :
    SimOut (read P n (a, c)) (read P n (b, c)) ∧ (read P n (a, c)).2.1.fullBodyBuff = a.fullBodyBuff := by
  rw [read_eq, read_eq]
  have h1 := h.pending
  have h2 := h.error
  simp only [h1, h2]
  split
  · obtain ⟨h1, h2, h3⟩ := retrieve_sim P c h
    rcases hra : retrieve P (a, c) with ⟨⟨d, err⟩, a', c1⟩
    rcases hrb : retrieve P (b, c) with ⟨⟨d', err'⟩, b', c2⟩
    have ka := retrieve_keeps P hra
    simp only [aux, Aux.mk.injEq] at ka
    rw [hra, hrb] at h1 h2 h3
    simp only [Prod.mk.injEq] at h1 h2 h3
    obtain ⟨rfl, rfl⟩ := h1
    subst h2
    obtain ⟨g1, g2⟩ := copyOut_sim n c1 (sim_stash h3 d err)
    exact ⟨g1, by rw [g2]; exact ka.1⟩
  · exact copyOut_sim n c h

theorem bytes_sim (P : ChunkedParser σ) (M : Nat) {a b : Body σ} (c : Client) (h : Sim a b)
    (hl : a.contentLength ≤ M) (hf : a.eof = false ∨ a.fullBodyBuff = b.fullBodyBuff) :
    SimOut (bytes P M (a, c)) (bytes P M (b, c)) ∧
      (bytes P M (a, c)).2.1.fullBodyBuff = (bytes P M (b, c)).2.1.fullBodyBuff := by
  unfold bytes
  simp only
  have he := h.eof
  have hlb : b.contentLength ≤ M := by rw [← h.length]; exact hl
  by_cases hea : a.eof = true
  · rw [if_pos hea, if_pos (he ▸ hea)]
    rcases hf with hf | hf
    · rw [hea] at hf; simp at hf
    · exact ⟨⟨by simp [hf], rfl, h⟩, hf⟩
  · rw [if_neg hea, if_neg (show ¬ b.eof = true from he ▸ hea), if_neg (by omega), if_neg (by omega)]
    have this : ∀ (x : Body σ), ∃ k, x.prepared = { x with fullCap := k, fullBodyBuff := [] } := by
      intro x
      unfold prepared
      split
      · exact ⟨_, rfl⟩
      · exact ⟨x.fullCap, rfl⟩
    obtain ⟨k, hk⟩ := this a
    obtain ⟨l, hl'⟩ := this b
    rw [hk, hl']
    obtain ⟨⟨g1, g2, g3⟩, g4⟩ := bytesLoop_sim P (c.size + 2) c (sim_full h [] [] k l) rfl
    exact ⟨⟨by rw [g1], g2, g3⟩, g4⟩

theorem string_eq (P : ChunkedParser σ) (M : Nat) (s : BC σ) :
    (string P M s).2 = (bytes P M s).2 ∧ (string P M s).1 = match (bytes P M s).1 with
      | .ok (d, e) => .ok (d.getD [], e)
      | .panic => .panic := by
  unfold string
  rcases bytes P M s with ⟨⟨d, e⟩ | _, s'⟩ <;> simp

/-- No call changes the declared length. -/
theorem retrieve_length (P : ChunkedParser σ) (s : BC σ) : (retrieve P s).2.1.contentLength = s.1.contentLength := by
  obtain ⟨b, c⟩ := s
  have hck : ∀ (b : Body σ) e, (b.checkEOF e).contentLength = b.contentLength := by
    intro b e; unfold checkEOF; split <;> rfl
  cases he : b.eof with
  | true => rw [retrieve_eof P (by exact he)]
  | false =>
    cases hc : b.isChunked with
    | true =>
      rw [retrieve_chunked P hc he]
      simp only [hck]
      match hr : c.read with
      | ((d, some e), c1) => rw [chunkedRead_err P hr]
      | ((d, none), c1) =>
        rcases hpr : P.parse b.parser d b.hasTrailer with ⟨st, chunk, extra, err⟩
        rw [chunkedRead_ok P hr hpr]
        unfold chunkedDone
        split
        · rfl
        · split <;> rfl
    | false =>
      rw [retrieve_plain P hc he]
      simp only [hck]
      unfold plainRead
      simp only
      split
      · rfl
      · split
        · rfl
        · split
          · rfl
          · split <;> rfl

theorem bytesLoop_length (P : ChunkedParser σ) (n : Nat) : ∀ s : BC σ,
    (bytesLoop P n s).2.1.contentLength = s.1.contentLength := by
  induction n with
  | zero => intro s; rfl
  | succ n ih =>
    intro s
    have h := retrieve_length P s
    rcases hr : retrieve P s with ⟨⟨d, err⟩, a', c1⟩
    rw [hr] at h
    simp only [bytesLoop, hr]
    cases err with
    | none => simp only; rw [ih]; exact h
    | some e => cases e <;> exact h

theorem bytes_length (P : ChunkedParser σ) (M : Nat) (s : BC σ) :
    (bytes P M s).2.1.contentLength = s.1.contentLength := by
  obtain ⟨b, c⟩ := s
  unfold bytes
  simp only
  split
  · rfl
  · split
    · rfl
    · rw [bytesLoop_length]
      unfold prepared
      split <;> rfl

theorem callback_length (P : ChunkedParser σ) (cb : List Bytes → Bytes → Option GoErr) (n : Nat) :
    ∀ (seen : List Bytes) (s : BC σ), (callback P cb n seen s).2.1.contentLength = s.1.contentLength := by
  induction n with
  | zero => intro seen s; rfl
  | succ n ih =>
    intro seen s
    have h := retrieve_length P s
    rcases hr : retrieve P s with ⟨⟨d, err⟩, a', c1⟩
    rw [hr] at h
    simp only [callback, hr]
    cases err with
    | none =>
      simp only
      split
      · rw [ih]; exact h
      · exact h
    | some e => cases e <;> exact h

theorem discard_length (P : ChunkedParser σ) (n : Nat) : ∀ (s : BC σ),
    (discard P n s).2.1.contentLength = s.1.contentLength := by
  induction n with
  | zero => intro s; rfl
  | succ n ih =>
    intro s
    have h := retrieve_length P s
    rcases hr : retrieve P s with ⟨⟨d, err⟩, a', c1⟩
    rw [hr] at h
    simp only [discard, hr]
    split
    · rfl
    · cases err with
      | none => simp only; rw [ih]; exact h
      | some e => cases e <;> exact h

theorem read_length (P : ChunkedParser σ) (n : Nat) (s : BC σ) :
    (read P n s).2.1.contentLength = s.1.contentLength := by
  rw [read_eq]
  split
  · exact retrieve_length P s
  · rfl

theorem call_length (P : ChunkedParser σ) (M : Nat) (s : BC σ) (k : Call) :
    (call P M s k).2.1.contentLength = s.1.contentLength := by
  cases k with
  | retrieve => exact retrieve_length P s
  | bytes => exact bytes_length P M s
  | string => simp only [call, (string_eq P M s).1]; exact bytes_length P M s
  | callback cb => exact callback_length P cb _ _ s
  | read n => exact read_length P n s
  | discard => exact discard_length P _ s

/-- The whole law: the same calls give the same answers. -/
theorem calls_sim (P : ChunkedParser σ) (M : Nat) (ks : List Call) : ∀ (own : Bool) {a b : Body σ} (c : Client), Sim a b →
    a.contentLength ≤ M → (own = true → a.fullBodyBuff = b.fullBodyBuff) → BytesInTime P M own (a, c) ks →
    (calls P M ks (a, c)).1 = (calls P M ks (b, c)).1 ∧ (calls P M ks (a, c)).2.2 = (calls P M ks (b, c)).2.2 := by
  induction ks with
  | nil => intro own a b c _ _ _ _; exact ⟨rfl, rfl⟩
  | cons k ks ih =>
    intro own a b c h hl hf hb
    have hsym : ∀ {a b : Body σ}, Sim a b → Sim b a := by
      intro a b h
      exact ⟨h.max.symm, h.chunked.symm, h.parser.symm, h.length.symm, h.eof.symm, h.pending.symm, h.error.symm,
        fun x => (h.left (h.chunked.trans x)).symm,
        fun x => ⟨(h.received (h.chunked.trans x)).1.symm, (h.received (h.chunked.trans x)).2.symm⟩⟩
    -- one call
    have one : (call P M (a, c) k).1 = (call P M (b, c) k).1 ∧ (call P M (a, c) k).2.2 = (call P M (b, c) k).2.2 ∧
        Sim (call P M (a, c) k).2.1 (call P M (b, c) k).2.1 ∧ (call P M (a, c) k).2.1.contentLength ≤ M ∧
        (((own || wantsWhole k) = true) →
          (call P M (a, c) k).2.1.fullBodyBuff = (call P M (b, c) k).2.1.fullBodyBuff) := by
      cases k with
      | retrieve =>
        obtain ⟨h1, h2, h3⟩ := retrieve_sim P c h
        have ka := retrieve_keeps P (b := a) (c := c) (r := (retrieve P (a, c)).1) (b' := (retrieve P (a, c)).2.1) (c' := (retrieve P (a, c)).2.2) rfl
        have kb := retrieve_keeps P (b := b) (c := c) (r := (retrieve P (b, c)).1) (b' := (retrieve P (b, c)).2.1) (c' := (retrieve P (b, c)).2.2) rfl
        simp only [aux, Aux.mk.injEq] at ka kb
        refine ⟨by simp only [call, h1], h2, h3, ?_, ?_⟩
        · exact (call_length P M (a, c) .retrieve) ▸ hl
        · intro ho
          simp [wantsWhole] at ho
          show (retrieve P (a, c)).2.1.fullBodyBuff = (retrieve P (b, c)).2.1.fullBodyBuff
          rw [ka.1, kb.1, hf ho]
      | bytes =>
        have hb1 := hb.1 rfl
        obtain ⟨⟨g1, g2, g3⟩, g4⟩ := bytes_sim P M c h hl (by
          rcases hb1 with h | h
          · exact .inl h
          · exact .inr (hf h))
        refine ⟨by simp only [call, g1], g2, g3, (call_length P M (a, c) .bytes) ▸ hl, fun _ => g4⟩
      | string =>
        have hb1 := hb.1 rfl
        obtain ⟨⟨g1, g2, g3⟩, g4⟩ := bytes_sim P M c h hl (by
          rcases hb1 with h | h
          · exact .inl h
          · exact .inr (hf h))
        obtain ⟨sa1, sa2⟩ := string_eq P M (a, c)
        obtain ⟨sb1, sb2⟩ := string_eq P M (b, c)
        refine ⟨?_, ?_, ?_, (call_length P M (a, c) .string) ▸ hl, fun _ => ?_⟩
        · simp only [call, sa2, sb2, g1]
        · simp only [call, sa1, sb1]; exact g2
        · simp only [call, sa1, sb1]; exact g3
        · simp only [call, sa1, sb1]; exact g4
      | callback cb =>
        obtain ⟨⟨g1, g2, g3⟩, g4⟩ := callback_sim P cb (fuel (a, c)) [] c h
        have g5 := (callback_sim P cb (fuel (a, c)) [] c (hsym h)).2
        refine ⟨by simp only [call, show fuel (b, c) = fuel (a, c) from rfl, g1], g2, g3,
          (call_length P M (a, c) (.callback cb)) ▸ hl, fun ho => ?_⟩
        simp [wantsWhole] at ho
        show (callback P cb (fuel (a, c)) [] (a, c)).2.1.fullBodyBuff = (callback P cb (fuel (a, c)) [] (b, c)).2.1.fullBodyBuff
        rw [g4, g5, hf ho]
      | read n =>
        obtain ⟨⟨g1, g2, g3⟩, g4⟩ := read_sim P n c h
        have g5 := (read_sim P n c (hsym h)).2
        refine ⟨by simp only [call, g1], g2, g3, (call_length P M (a, c) (.read n)) ▸ hl, fun ho => ?_⟩
        simp [wantsWhole] at ho
        show (read P n (a, c)).2.1.fullBodyBuff = (read P n (b, c)).2.1.fullBodyBuff
        rw [g4, g5, hf ho]
      | discard =>
        obtain ⟨⟨g1, g2, g3⟩, g4⟩ := discard_sim P (fuel (a, c)) c h
        have g5 := (discard_sim P (fuel (a, c)) c (hsym h)).2
        refine ⟨by simp only [call, show fuel (b, c) = fuel (a, c) from rfl, g1], g2, g3,
          (call_length P M (a, c) .discard) ▸ hl, fun ho => ?_⟩
        simp [wantsWhole] at ho
        show (discard P (fuel (a, c)) (a, c)).2.1.fullBodyBuff = (discard P (fuel (a, c)) (b, c)).2.1.fullBodyBuff
        rw [g4, g5, hf ho]
    obtain ⟨o1, o2, o3, o4, o5⟩ := one
    have hb2 := hb.2
    rcases hca : call P M (a, c) k with ⟨ra, a', c1⟩
    rcases hcb : call P M (b, c) k with ⟨rb, b', c2⟩
    rw [hca, hcb] at o1 o2 o3 o5
    rw [hca] at o4 hb2
    simp only at o1 o2 o3 o4 o5
    subst o1; subst o2
    obtain ⟨i1, i2⟩ := ih _ c1 o3 o4 o5 hb2
    simp only [calls, hca, hcb]
    exact ⟨by rw [i1], i2⟩

end Indigo.Body
