/-
Further facts about bodies: connections going on after the script, interrupted and oversized bodies, histories.
-/
import Verif.Proofs.Body2
import Verif.Proofs.Chunked

namespace Indigo.Body
open Indigo.Spec
variable {σ : Type}

theorem read_followedBy {c c1 : Client} {d : Bytes} {e : Option GoErr} (post) (hr : c.read = ((d, e), c1))
    (hne : e ≠ some .timeout) : (followedBy c post).read = ((d, e), followedBy c1 post) := by
  unfold Client.read at hr ⊢
  split at hr
  · rename_i hp
    simp at hr; obtain ⟨⟨rfl, rfl⟩, rfl⟩ := hr
    simp [followedBy, hp]
  · rename_i hp
    split at hr
    · simp at hr; exact absurd hr.1.2.symm hne
    · rename_i ev conn hc
      simp at hr
      obtain ⟨h1, rfl⟩ := hr
      rw [if_neg (by simpa [followedBy] using hp)]
      simp [followedBy, hc, h1]

theorem retrieve_followedBy (P : ChunkedParser σ) {b b' : Body σ} {c c' : Client} {d : Bytes} {e : Option GoErr} (post)
    (hr : retrieve P (b, c) = ((d, e), (b', c'))) (hne : e ≠ some .timeout) :
    retrieve P (b, followedBy c post) = ((d, e), (b', followedBy c' post)) := by
  cases he : b.eof with
  | true =>
    rw [retrieve_eof P (by exact he)] at hr
    simp at hr
    obtain ⟨⟨rfl, rfl⟩, rfl, rfl⟩ := hr
    rw [retrieve_eof P (by exact he)]
  | false =>
    cases hc : b.isChunked with
    | true =>
      rw [retrieve_chunked P hc he] at hr ⊢
      match hrd : c.read with
      | ((x, some f), c1) =>
        rw [chunkedRead_err P hrd] at hr
        simp at hr
        obtain ⟨⟨rfl, rfl⟩, h1, h2⟩ := hr
        rw [chunkedRead_err P (read_followedBy post hrd hne)]
        simp [h1, h2]
      | ((x, none), c1) =>
        rcases hP : P.parse b.parser x b.hasTrailer with ⟨st, chunk, extra, err⟩
        rw [chunkedRead_ok P hrd hP] at hr
        rw [chunkedRead_ok P (read_followedBy post hrd (by simp)) hP]
        unfold chunkedDone at hr ⊢
        split
        · rename_i h1
          rw [if_pos h1] at hr
          simp at hr ⊢
          exact ⟨hr.1, hr.2.1, by rw [hr.2.2]⟩
        · rename_i h1
          rw [if_neg h1] at hr
          split
          · rename_i h2
            rw [if_pos h2] at hr
            simp at hr ⊢
            exact ⟨hr.1, hr.2.1, by rw [hr.2.2]⟩
          · rename_i h2
            rw [if_neg h2] at hr
            simp at hr ⊢
            exact ⟨hr.1, hr.2.1, by rw [← hr.2.2]; rfl⟩
    | false =>
      rw [retrieve_plain P hc he] at hr ⊢
      by_cases h0 : b.bytesLeft = 0
      · simp only [plainRead, h0, if_true] at hr ⊢
        simp at hr ⊢
        exact ⟨hr.1, hr.2.1, by rw [hr.2.2]⟩
      · match hrd : c.read with
        | ((x, some f), c1) =>
          simp only [plainRead, h0, if_false, hrd] at hr ⊢
          simp at hr
          obtain ⟨⟨rfl, rfl⟩, h1, h2⟩ := hr
          rw [read_followedBy post hrd hne]
          simp [h1, h2]
        | ((x, none), c1) =>
          simp only [plainRead, h0, if_false, hrd, read_followedBy post hrd (by simp : none ≠ some GoErr.timeout)] at hr ⊢
          split
          · rename_i h1
            rw [if_pos h1] at hr
            simp at hr ⊢
            exact ⟨hr.1, hr.2.1, by rw [hr.2.2]⟩
          · rename_i h1
            rw [if_neg h1] at hr
            split
            · rename_i h2
              rw [if_pos h2] at hr
              simp at hr ⊢
              exact ⟨hr.1, hr.2.1, by rw [← hr.2.2]; rfl⟩
            · rename_i h2
              rw [if_neg h2] at hr
              simp at hr ⊢
              exact ⟨hr.1, hr.2.1, by rw [hr.2.2]⟩

theorem pieces_followedBy (P : ChunkedParser σ) {s s' : BC σ} {ds e} (post) (h : Pieces P s ds e s')
    (hne : e ≠ .timeout) : Pieces P (s.1, followedBy s.2 post) ds e (s'.1, followedBy s'.2 post) := by
  induction h with
  | @last s d e s' hr =>
    exact .last (retrieve_followedBy P post hr (by simpa using hne))
  | @more s d s1 ds e s' hr _ ih =>
    exact .more (retrieve_followedBy P post hr (by simp)) (ih hne)

/-- The connection fails with `e` before the whole sized body is there: the pieces are what has arrived, then `e`. -/
theorem plain_interrupted (P : ChunkedParser σ) (e : GoErr) (x : Bytes) (n : Nat) : ∀ (b : Body σ) (c : Client),
    c.size ≤ n → b.isChunked = false → b.eof = false → b.bytesLeft ≤ b.maxBodyLen → c.stream.length < b.bytesLeft →
    Quiet c → ∀ post, ∃ ds b' c', Pieces P (b, followedBy c ((x, some e) :: post)) ds e (b', c') ∧ ds.flatten = c.stream := by
  induction n with
  | zero =>
    intro b c hn h1 h2 h3 h4 hq post
    have hpc : c.pending = [] ∧ c.conn = [] := by
      unfold Client.size at hn
      constructor
      · cases hp : c.pending <;> simp [hp] at hn ⊢
      · cases hp : c.conn <;> simp [hp] at hn ⊢
    have hr : (followedBy c ((x, some e) :: post)).read = ((x, some e), { c with conn := post }) := by
      simp [Client.read, followedBy, hpc.1, hpc.2]
    refine ⟨[[]], b.checkEOF (some e), { c with conn := post }, .last ?_, by simp [Client.stream, hpc.1, hpc.2]⟩
    · rw [retrieve_plain P h1 h2]
      simp only [plainRead, hr]
      rw [if_neg (by omega)]
  | succ n ih =>
    intro b c hn h1 h2 h3 h4 hq post
    match hr : c.read with
    | ((d, some f), c1) =>
      obtain ⟨_, _, _, hx⟩ := read_err hr
      have hpc : c.pending = [] ∧ c.conn = [] := by
        unfold Client.read at hr
        split at hr
        · simp at hr
        · rename_i hp
          refine ⟨by simpa using hp, ?_⟩
          split at hr
          · assumption
          · rename_i ev conn hc
            simp at hr
            have := hq ev (by simp [hc])
            rw [hr.1] at this; simp at this
      have hr : (followedBy c ((x, some e) :: post)).read = ((x, some e), { c with conn := post }) := by
        simp [Client.read, followedBy, hpc.1, hpc.2]
      refine ⟨[[]], b.checkEOF (some e), { c with conn := post }, .last ?_, by simp [Client.stream, hpc.1, hpc.2]⟩
      · rw [retrieve_plain P h1 h2]
        simp only [plainRead, hr]
        rw [if_neg (by omega)]
    | ((d, none), c1) =>
      obtain ⟨r1, r2, r3, r4⟩ := read_size hr
      obtain ⟨p1, p2⟩ := read_progress hr
      have hdl : d.length < b.bytesLeft := by
        have := congrArg List.length r3
        simp at this; omega
      have hpl : plainRead (b, followedBy c ((x, some e) :: post)) =
          ((d, none), ({ b with bytesLeft := b.bytesLeft - d.length }, followedBy c1 ((x, some e) :: post))) := by
        simp only [plainRead, read_followedBy ((x, some e) :: post) hr (by simp : none ≠ some GoErr.timeout)]
        rw [if_neg (by omega), if_neg (by omega), if_neg (by omega)]
      obtain ⟨ds, b', c', q1, q2⟩ := ih { b with bytesLeft := b.bytesLeft - d.length } c1
        (by
          have : c1.size < c.size := by
            by_cases hde : d = []
            · exact p2 hde
            · have := List.length_pos_iff.2 hde
              omega
          omega) h1 h2 (by simp; omega)
        (by
          have := congrArg List.length r3
          simp at this ⊢; omega) (r4 hq) post
      refine ⟨d :: ds, b', c', .more ?_ q1, by simp [q2, r3]⟩
      rw [retrieve_plain P h1 h2, hpl]
      simp [checkEOF]

/-- An oversized sized body: no `Retrieve` succeeds. -/
theorem plain_too_large (P : ChunkedParser σ) {b : Body σ} {c : Client} (h1 : b.isChunked = false) (h2 : b.eof = false)
    (h3 : b.maxBodyLen < b.bytesLeft) : ∃ e c', retrieve P (b, c) = (([], some e), (b.checkEOF (some e), c')) ∧
      (Quiet c → e = .timeout ∨ e = .http Status.ErrBodyTooLarge) ∧
      (Quiet c → c.stream ≠ [] → e = .http Status.ErrBodyTooLarge) := by
  match hr : c.read with
  | ((d, some f), c1) =>
    refine ⟨f, c1, ?_, ?_, ?_⟩
    · rw [retrieve_plain P h1 h2]
      simp only [plainRead, hr]
      rw [if_neg (by omega)]
    · intro hq
      unfold Client.read at hr
      split at hr
      · simp at hr
      · split at hr
        · simp at hr; exact .inl hr.1.2.symm
        · rename_i ev conn hc
          simp at hr
          have := hq ev (by simp [hc])
          rw [hr.1] at this; simp at this
    · intro hq hne
      obtain ⟨_, _, _, hx⟩ := read_err hr
      exact absurd (hx hq).2.1 hne
  | ((d, none), c1) =>
    refine ⟨.http Status.ErrBodyTooLarge, c1, ?_, fun _ => .inr rfl, fun _ _ => rfl⟩
    rw [retrieve_plain P h1 h2]
    simp only [plainRead, hr]
    rw [if_neg (by omega), if_pos h3]

theorem discard_too_large (P : ChunkedParser σ) {b : Body σ} {c : Client} (h1 : b.isChunked = false) (h2 : b.eof = false)
    (h3 : b.maxBodyLen < b.bytesLeft) (hq : Quiet c) (n : Nat) :
    ∃ e, (discard P (n + 1) (b, c)).1 = some e := by
  obtain ⟨e, c', hr, he, _⟩ := plain_too_large P (c := c) h1 h2 h3
  refine ⟨e, ?_⟩
  simp only [discard, h2, hr]
  rcases he hq with rfl | rfl <;> simp [GoErr.timeout]

theorem initFor_plain (b : Body σ) (r : Request) (h : r.Encoding.Chunked = false) :
    (b.initFor r).isChunked = false ∧ (b.initFor r).bytesLeft = toUint r.ContentLength ∧ (b.initFor r).eof = false ∧
    (b.initFor r).contentLength = r.ContentLength ∧ (b.initFor r).parser = b.parser ∧ (b.initFor r).fullCap = b.fullCap := by
  simp [initFor, h]

theorem initFor_chunked (b : Body σ) (r : Request) (h : r.Encoding.Chunked = true) :
    (b.initFor r).isChunked = true ∧ (b.initFor r).received = 0 ∧ (b.initFor r).eof = false ∧
    (b.initFor r).hasTrailer = r.Encoding.HasTrailer ∧ (b.initFor r).parser = b.parser := by
  simp [initFor, h]

theorem initFor_fresh (b : Body σ) (r : Request) : (b.initFor r).eof = false ∧ (b.initFor r).stashPending = [] ∧
    (b.initFor r).stashError = none ∧ (b.initFor r).contentLength = r.ContentLength := by
  unfold initFor; cases r.Encoding.Chunked <;> simp

theorem toUint_nat {n : Nat} (h : n < 2 ^ 64) : toUint (n : Int) = n := by
  unfold toUint; omega

theorem toUint_bmod (n : Nat) : toUint (Int.bmod (n : Int) (2 ^ 64)) = n % 2 ^ 64 := by
  unfold toUint
  have h := Int.emod_bmod (n : Int) (2 ^ 64)
  have : (Int.bmod (n : Int) (2 ^ 64)) % (2 ^ 64 : Int) = (n : Int) % (2 ^ 64 : Int) := by
    have := Int.bmod_emod (x := (n : Int)) (m := 2 ^ 64)
    simpa using this
  rw [this]
  omega

theorem bytes_pieces (P : ChunkedParser σ) (M : Nat) {b : Body σ} {c : Client} {s' : BC σ} {ds e}
    (h : Pieces P (b, c) ds e s') (he : b.eof = false) (hM : b.contentLength ≤ M) :
    (bytes P M (b, c)).1 = .ok (bytesAnswer ds.flatten e) ∧ (bytes P M (b, c)).2.2 = s'.2 := by
  unfold bytes
  simp only [he, Bool.false_eq_true, if_false]
  rw [if_neg (by omega)]
  obtain ⟨k, hk⟩ : ∃ k, b.prepared = withAux b ⟨[], k, b.stashPending, b.stashError⟩ := by
    unfold prepared
    split
    · exact ⟨_, rfl⟩
    · exact ⟨b.fullCap, rfl⟩
  have hp := pieces_aux P ⟨[], k, b.stashPending, b.stashError⟩ h
  simp only at hp
  have hb := bytesLoop_pieces P hp [] (c.size + 2) (by simp)
  have haf : afterFull (withAux b ⟨[], k, b.stashPending, b.stashError⟩, c) [] = (b.prepared, c) := by rw [hk]; rfl
  rw [haf] at hb
  rw [hb]
  simp [afterFull]

/-- Reading and pushing back: nothing is lost. -/
theorem history_stream {c0 c : Client} {consumed : Bytes} {last : Option Bytes} (h : History c0 consumed last c) :
    consumed ++ c.stream = c0.stream ∧ (last ≠ none → c.pending = []) := by
  induction h with
  | start => simp
  | @read consumed last c d e c' _ hr ih =>
    have key : c.stream = d ++ c'.stream ∧ c'.pending = [] := by
      unfold Client.read at hr
      split at hr
      · simp at hr; obtain ⟨⟨rfl, _⟩, rfl⟩ := hr; simp [Client.stream]
      · rename_i hp
        have hp : c.pending = [] := by simpa using hp
        split at hr
        · rename_i hc
          simp at hr; obtain ⟨⟨rfl, _⟩, rfl⟩ := hr; simp [Client.stream, hc, hp]
        · rename_i ev conn hc
          simp at hr; obtain ⟨h1, rfl⟩ := hr; simp [Client.stream, hc, hp, h1]
    refine ⟨?_, fun _ => key.2⟩
    rw [List.append_assoc, ← key.1]; exact ih.1
  | @unread y x z c _ ih =>
    refine ⟨?_, by simp⟩
    have := ih.2 (by simp)
    rw [(unread_size c x this).2.1, ← List.append_assoc]; exact ih.1

end Indigo.Body
