/-
Handlers and the body of the request: what every sequence of operations preserves.
-/
import Verif.Model.Serve
import Verif.Proofs.Body3

namespace Indigo.Body
open Indigo.Spec
variable {σ : Type}

theorem run_hijacked (P : ChunkedParser σ) (maxAlloc : Nat) {α : Type} (x : Act α) : ∀ (w : Act.World σ),
    w.hijacked = true → (Act.run P maxAlloc x w).2.hijacked = true := by
  induction x with
  | ret a => intro w h; exact h
  | panic => intro w h; exact h
  | body k next ih => intro w h; simp only [Act.run]; exact ih _ _ h
  | hijack next ih => intro w h; simp only [Act.run]; exact ih _ _ (by simp [h])
  | read next ih => intro w h; simp only [Act.run, h, if_true]; exact ih _ _ _ rfl
  | unread b next ih => intro w h; simp only [Act.run, h, if_true]; exact ih _ rfl
  | write b next ih => intro w h; simp only [Act.run, h, if_true]; exact ih _ _ rfl

/-! ### Invariants of all accessors -/

section
variable (P : ChunkedParser σ) (I : BC σ → Prop) (hr : ∀ s, I s → I (retrieve P s).2)
  (ha : ∀ b c a, I (b, c) → I (withAux b a, c))
include hr

theorem discard_inv (fuel : Nat) : ∀ s, I s → I (discard P fuel s).2 := by
  induction fuel with
  | zero => intro s h; exact h
  | succ fuel ih =>
    intro s h
    simp only [discard]
    split
    · exact h
    · have h1 := hr s h
      split
      · exact ih _ h1
      · exact h1
      · exact h1

theorem callback_inv (cb : List Bytes → Bytes → Option GoErr) (fuel : Nat) :
    ∀ seen s, I s → I (callback P cb fuel seen s).2 := by
  induction fuel with
  | zero => intro seen s h; exact h
  | succ fuel ih =>
    intro seen s h
    simp only [callback]
    have h1 := hr s h
    split
    · split
      · exact ih _ _ h1
      · exact h1
    · exact h1
    · exact h1

include ha

theorem bytesLoop_inv (fuel : Nat) : ∀ s, I s → I (bytesLoop P fuel s).2 := by
  induction fuel with
  | zero => intro s h; exact h
  | succ fuel ih =>
    intro s h
    simp only [bytesLoop]
    have h1 := hr s h
    have h2 := ha (retrieve P s).2.1 (retrieve P s).2.2
      ⟨(retrieve P s).2.1.fullBodyBuff ++ (retrieve P s).1.1, (retrieve P s).2.1.fullCap,
        (retrieve P s).2.1.stashPending, (retrieve P s).2.1.stashError⟩ h1
    split
    · exact ih _ h2
    · exact h2
    · exact h2

theorem bytes_inv (maxAlloc : Nat) (s : BC σ) (h : I s) : I (bytes P maxAlloc s).2 := by
  obtain ⟨b, c⟩ := s
  simp only [bytes]
  split
  · exact h
  · split
    · exact h
    · refine bytesLoop_inv P I hr ha _ _ ?_
      unfold prepared
      split
      · exact ha b c ⟨[], b.contentLength.toNat, b.stashPending, b.stashError⟩ h
      · exact ha b c ⟨[], b.fullCap, b.stashPending, b.stashError⟩ h

theorem string_inv (maxAlloc : Nat) (s : BC σ) (h : I s) : I (string P maxAlloc s).2 := by
  have := bytes_inv P I hr ha maxAlloc s h
  unfold string
  split <;> (rename_i hb; rw [hb] at this; exact this)

theorem read_inv (n : Nat) (s : BC σ) (h : I s) : I (read P n s).2 := by
  rw [read_eq]
  have key : ∀ s : BC σ, I s → I (copyOut n s).2 := by
    intro s h
    exact ha s.1 s.2 ⟨s.1.fullBodyBuff, s.1.fullCap, s.1.stashPending.drop n, s.1.stashError⟩ h
  split
  · apply key
    have h1 := hr s h
    exact ha (retrieve P s).2.1 (retrieve P s).2.2
      ⟨(retrieve P s).2.1.fullBodyBuff, (retrieve P s).2.1.fullCap, (retrieve P s).1.1, (retrieve P s).1.2⟩ h1
  · exact key s h

theorem call_inv (maxAlloc : Nat) (s : BC σ) (k : Call) (h : I s) : I (call P maxAlloc s k).2 := by
  cases k with
  | retrieve => exact hr s h
  | bytes => exact bytes_inv P I hr ha maxAlloc s h
  | string => exact string_inv P I hr ha maxAlloc s h
  | callback cb => exact callback_inv P I hr cb _ _ _ h
  | read n => exact read_inv P I hr ha n s h
  | discard => exact discard_inv P I hr _ _ h

theorem run_inv (maxAlloc : Nat) {α : Type} (x : Act α) : ∀ w : Act.World σ, I (w.body, w.client) →
    (Act.run P maxAlloc x w).2.hijacked = false → w.hijacked = false ∧
      I ((Act.run P maxAlloc x w).2.body, (Act.run P maxAlloc x w).2.client) := by
  induction x with
  | ret a => intro w h hh; exact ⟨hh, h⟩
  | panic => intro w h hh; exact ⟨hh, h⟩
  | body k next ih =>
    intro w h hh
    simp only [Act.run] at hh ⊢
    exact ih _ { w with body := _, client := _ } (call_inv P I hr ha maxAlloc (w.body, w.client) k h) hh
  | hijack next ih =>
    intro w h hh
    simp only [Act.run] at hh ⊢
    have := ih _ _ (discard_inv P I hr _ _ h) hh
    simp only [Bool.or_eq_false_iff] at this
    exact ⟨this.1.1, this.2⟩
  | read next ih =>
    intro w h hh
    simp only [Act.run] at hh ⊢
    cases hw : w.hijacked with
    | true =>
      exfalso
      rw [hw] at hh
      simp only [if_true] at hh
      rw [run_hijacked P maxAlloc _ _ rfl] at hh
      exact Bool.noConfusion hh
    | false =>
      simp only [hw, Bool.false_eq_true, if_false] at hh ⊢
      exact ⟨trivial, (ih _ _ w h hh).2⟩
  | unread b next ih =>
    intro w h hh
    simp only [Act.run] at hh ⊢
    cases hw : w.hijacked with
    | true =>
      exfalso
      rw [hw] at hh
      simp only [if_true] at hh
      rw [run_hijacked P maxAlloc _ _ rfl] at hh
      exact Bool.noConfusion hh
    | false =>
      simp only [hw, Bool.false_eq_true, if_false] at hh ⊢
      exact ⟨trivial, (ih w h hh).2⟩
  | write b next ih =>
    intro w h hh
    simp only [Act.run] at hh ⊢
    cases hw : w.hijacked with
    | true =>
      exfalso
      rw [hw] at hh
      simp only [if_true] at hh
      rw [run_hijacked P maxAlloc _ _ rfl] at hh
      exact Bool.noConfusion hh
    | false =>
      simp only [hw, Bool.false_eq_true, if_false] at hh ⊢
      exact ⟨trivial, (ih _ w h hh).2⟩

end

/-! ### The output side of the connection -/

/-- The same connection with another output side. -/
def withOut (c : Client) (o : Client) : Client := { c with written := o.written, wscript := o.wscript }

theorem withOut_self (c : Client) : withOut c c = c := rfl

theorem read_withOut (c o : Client) : (withOut c o).read = (c.read.1, withOut c.read.2 o) := by
  unfold Client.read withOut
  dsimp only
  split
  · rfl
  · cases hc : c.conn <;> simp [hc]

theorem read_out (c : Client) : c.read.2 = withOut c.read.2 c := by
  have := read_withOut c c
  rw [withOut_self] at this
  exact congrArg Prod.snd this

theorem retrieve_withOut (P : ChunkedParser σ) (b : Body σ) (c o : Client) :
    retrieve P (b, withOut c o) = ((retrieve P (b, c)).1, ((retrieve P (b, c)).2.1, withOut (retrieve P (b, c)).2.2 o)) := by
  have hp : plainRead (b, withOut c o) =
      ((plainRead (b, c)).1, ((plainRead (b, c)).2.1, withOut (plainRead (b, c)).2.2 o)) := by
    simp only [plainRead, read_withOut]
    split
    · rfl
    · rcases c.read with ⟨⟨d, e⟩, c1⟩
      cases e with
      | some e => rfl
      | none =>
        dsimp only
        split
        · rfl
        · split <;> rfl
  have hc : chunkedRead P (b, withOut c o) =
      ((chunkedRead P (b, c)).1, ((chunkedRead P (b, c)).2.1, withOut (chunkedRead P (b, c)).2.2 o)) := by
    simp only [chunkedRead, read_withOut]
    rcases c.read with ⟨⟨d, e⟩, c1⟩
    cases e with
    | some e => rfl
    | none =>
      dsimp only
      rcases P.parse b.parser d b.hasTrailer with ⟨st, chunk, extra, err⟩
      unfold chunkedDone
      split
      · rfl
      · split <;> rfl
  unfold retrieve
  dsimp only
  split
  · rfl
  · split
    · rw [hc]
    · rw [hp]

theorem pieces_withOut (P : ChunkedParser σ) {s s' : BC σ} {ds e} (o : Client) (h : Pieces P s ds e s') :
    Pieces P (s.1, withOut s.2 o) ds e (s'.1, withOut s'.2 o) := by
  induction h with
  | @last s d e s' hr =>
    refine .last ?_
    have := retrieve_withOut P s.1 s.2 o
    rw [show (s.1, s.2) = s from rfl, hr] at this
    exact this
  | @more s d s1 ds e s' hr _ ih =>
    refine .more ?_ ih
    have := retrieve_withOut P s.1 s.2 o
    rw [show (s.1, s.2) = s from rfl, hr] at this
    exact this

/-- `Retrieve` writes nothing. -/
theorem retrieve_out (P : ChunkedParser σ) (s : BC σ) :
    (retrieve P s).2.2.written = s.2.written ∧ (retrieve P s).2.2.wscript = s.2.wscript := by
  have := retrieve_withOut P s.1 s.2 s.2
  rw [withOut_self] at this
  have h : (retrieve P s).2.2 = withOut (retrieve P s).2.2 s.2 := congrArg (fun x => x.2.2) this
  rw [h]
  exact ⟨rfl, rfl⟩

/-- `Retrieve` does not change the limit. -/
theorem retrieve_max (P : ChunkedParser σ) (s : BC σ) : (retrieve P s).2.1.maxBodyLen = s.1.maxBodyLen := by
  have hk : ∀ (b : Body σ) e, (b.checkEOF e).maxBodyLen = b.maxBodyLen := by
    intro b e; unfold checkEOF; split <;> rfl
  obtain ⟨b, c⟩ := s
  unfold retrieve
  dsimp only
  split
  · rfl
  · simp only [hk]
    split
    · simp only [chunkedRead]
      rcases c.read with ⟨⟨d, e⟩, c1⟩
      cases e with
      | some e => rfl
      | none =>
        dsimp only
        rcases P.parse b.parser d b.hasTrailer with ⟨st, chunk, extra, err⟩
        unfold chunkedDone
        split
        · rfl
        · split <;> rfl
    · simp only [plainRead]
      split
      · rfl
      · rcases c.read with ⟨⟨d, e⟩, c1⟩
        cases e with
        | some e => rfl
        | none =>
          dsimp only
          split
          · rfl
          · split <;> rfl

/-- `Retrieve` does not make the input longer. -/
theorem retrieve_size_le (P : ChunkedParser σ) (s : BC σ) : (retrieve P s).2.2.size ≤ s.2.size := by
  have hread : ∀ c : Client, c.read.2.size ≤ c.size := by
    intro c
    unfold Client.read Client.size
    split
    · simp
    · cases hc : c.conn <;> simp [hc]
  have hunread : ∀ (c : Client) (d x : Bytes) (c1 : Client), c.read = ((d, none), c1) → x.length ≤ d.length →
      (c1.unread x).size ≤ c.size := by
    intro c d x c1 h hx
    unfold Client.read at h
    unfold Client.size Client.unread
    split at h
    · cases h
      simp; omega
    · rename_i hp
      have hp' : c.pending.length = 0 := by omega
      cases hc : c.conn with
      | nil => rw [hc] at h; cases h
      | cons ev conn =>
        rw [hc] at h
        cases h
        simp; omega
  obtain ⟨b, c⟩ := s
  unfold retrieve
  dsimp only
  split
  · exact Nat.le_refl _
  · split
    · simp only [chunkedRead]
      rcases hr : c.read with ⟨⟨d, e⟩, c1⟩
      have hh := hread c
      rw [hr] at hh
      cases e with
      | some e => exact hh
      | none =>
        dsimp only
        rcases hp : P.parse b.parser d b.hasTrailer with ⟨st, chunk, extra, err⟩
        unfold chunkedDone
        split
        · exact hh
        · split
          · exact hh
          · refine hunread c d _ c1 hr ?_
            obtain ⟨used, h1, _⟩ := P.suffix b.parser d b.hasTrailer
            have := congrArg List.length h1
            simp at this
            have h2 : (P.parse b.parser d b.hasTrailer).2.2.1.length ≤ d.length := by omega
            exact h2
    · simp only [plainRead]
      split
      · exact Nat.le_refl _
      · rcases hr : c.read with ⟨⟨d, e⟩, c1⟩
        have hh := hread c
        rw [hr] at hh
        cases e with
        | some e => exact hh
        | none =>
          dsimp only
          split
          · exact hh
          · split
            · exact hunread c d _ c1 hr (by simp)
            · exact hh

/-! ### The rest of a body -/

/-- From `s` the body comes to its end, and then the connection delivers `after`, and then does `post`. -/
def Left (P : ChunkedParser σ) (limit : Nat) (after : Bytes) (post : List (Bytes × Option GoErr)) (s : BC σ) : Prop :=
  ∃ ds b' c', Pieces P s ds .eof (b', followedBy c' post) ∧ c'.stream = after ∧ Quiet c' ∧ b'.parser = P.init ∧
    b'.maxBodyLen = limit

section
variable (P : ChunkedParser σ) (limit : Nat) (after : Bytes) (post : List (Bytes × Option GoErr))

theorem left_retrieve (s : BC σ) (h : Left P limit after post s) : Left P limit after post (retrieve P s).2 := by
  obtain ⟨ds, b', c', h1, h2, h3, h4, h5⟩ := h
  cases h1 with
  | last hr =>
    have he := retrieve_eof_after P hr
    rw [hr]
    exact ⟨_, b', c', .last (retrieve_eof P he), h2, h3, h4, h5⟩
  | more hr h1 =>
    rw [hr]
    exact ⟨_, b', c', h1, h2, h3, h4, h5⟩

theorem left_aux (b : Body σ) (c : Client) (a : Aux) (h : Left P limit after post (b, c)) :
    Left P limit after post (withAux b a, c) := by
  obtain ⟨ds, b', c', h1, h2, h3, h4, h5⟩ := h
  exact ⟨ds, withAux b' a, c', pieces_aux P a h1, h2, h3, h4, h5⟩

theorem left_withOut (b : Body σ) (c o : Client) (h : Left P limit after post (b, c)) :
    Left P limit after post (b, withOut c o) := by
  obtain ⟨ds, b', c', h1, h2, h3, h4, h5⟩ := h
  exact ⟨ds, b', withOut c' o, pieces_withOut P o h1, h2, h3, h4, h5⟩

theorem left_discard (b : Body σ) (c : Client) (h : Left P limit after post (b, c)) :
    ∃ b' c', discard P (fuel (b, c)) (b, c) = (none, (b', followedBy c' post)) ∧ c'.stream = after ∧ Quiet c' ∧
      b'.parser = P.init ∧ b'.maxBodyLen = limit ∧ c'.written = c.written ∧ c'.wscript = c.wscript := by
  obtain ⟨ds, b', c', h1, h2, h3, h4, h5⟩ := h
  have hd := discard_pieces P h1 (fuel (b, c)) (by unfold fuel; omega)
  rw [if_pos rfl] at hd
  have ho := discard_inv P (fun s => s.2.written = c.written ∧ s.2.wscript = c.wscript)
    (fun s hs => ⟨(retrieve_out P s).1.trans hs.1, (retrieve_out P s).2.trans hs.2⟩) (fuel (b, c)) (b, c) ⟨rfl, rfl⟩
  rw [hd] at ho
  exact ⟨b', c', hd, h2, h3, h4, h5, ho⟩

end
end Indigo.Body
