/-
Reading does not depend on what happens to the writes of a connection.
-/
import Verif.Proofs.Session

namespace Indigo
open Indigo.Spec
variable {σ ρ : Type}

/-- The same client, with other outcomes of the coming writes, and another record of those made. -/
def Client.as (ws : List (Option GoErr)) (wr : List Bytes) (c : Client) : Client := { c with wscript := ws, written := wr }

theorem Client.as_as (ws wr ws' wr') (c : Client) : (c.as ws wr).as ws' wr' = c.as ws' wr' := rfl
theorem Client.as_self (c : Client) : c.as c.wscript c.written = c := rfl
@[simp] theorem Client.as_size (ws wr) (c : Client) : (c.as ws wr).size = c.size := rfl
@[simp] theorem Client.as_unread (ws wr) (c : Client) (b : Bytes) : (c.as ws wr).unread b = (c.unread b).as ws wr := rfl
@[simp] theorem Client.as_wscript (ws wr) (c : Client) : (c.as ws wr).wscript = ws := rfl
@[simp] theorem Client.as_written (ws wr) (c : Client) : (c.as ws wr).written = wr := rfl

theorem Client.as_read (ws wr) (c : Client) : (c.as ws wr).read = (c.read.1, c.read.2.as ws wr) := by
  unfold Client.read Client.as
  dsimp only
  split
  · rfl
  · split <;> rfl

namespace Body

/-- A body and its client, as before. -/
def on (ws : List (Option GoErr)) (wr : List Bytes) (s : BC σ) : BC σ := (s.1, s.2.as ws wr)

theorem plainRead_as (ws wr) (s : BC σ) : plainRead (on ws wr s) = ((plainRead s).1, on ws wr (plainRead s).2) := by
  obtain ⟨b, c⟩ := s
  unfold plainRead on
  dsimp only
  rw [Client.as_read]
  split
  · rfl
  · rcases c.read with ⟨⟨d, e⟩, c'⟩
    cases e with
    | some e => rfl
    | none =>
      dsimp only
      split
      · rfl
      · split <;> rfl

theorem chunkedRead_as (P : ChunkedParser σ) (ws wr) (s : BC σ) : chunkedRead P (on ws wr s) = ((chunkedRead P s).1, on ws wr (chunkedRead P s).2) := by
  obtain ⟨b, c⟩ := s
  unfold chunkedRead on
  dsimp only
  rw [Client.as_read]
  rcases c.read with ⟨⟨d, e⟩, c'⟩
  cases e with
  | some e => rfl
  | none =>
    rcases P.parse b.parser d b.hasTrailer with ⟨st, chunk, extra, err⟩
    unfold chunkedDone
    dsimp only
    split
    · rfl
    · split <;> rfl

theorem retrieve_as (P : ChunkedParser σ) (ws wr) (s : BC σ) : retrieve P (on ws wr s) = ((retrieve P s).1, on ws wr (retrieve P s).2) := by
  unfold retrieve
  rw [show (on ws wr s).1 = s.1 from rfl, chunkedRead_as, plainRead_as]
  split
  · rfl
  · cases s.1.isChunked <;> rfl

theorem bytesLoop_as (P : ChunkedParser σ) (ws wr) : ∀ (n : Nat) (s : BC σ), bytesLoop P n (on ws wr s) = ((bytesLoop P n s).1, on ws wr (bytesLoop P n s).2) := by
  intro n
  induction n with
  | zero => intro s; rfl
  | succ n ih =>
    intro s
    unfold bytesLoop
    rw [retrieve_as]
    rcases retrieve P s with ⟨⟨d, e⟩, s'⟩
    dsimp only
    cases e with
    | none => exact ih ({ s'.1 with fullBodyBuff := s'.1.fullBodyBuff ++ d }, s'.2)
    | some e => cases e <;> rfl

theorem bytes_as (P : ChunkedParser σ) (m) (ws wr) (s : BC σ) : bytes P m (on ws wr s) = ((bytes P m s).1, on ws wr (bytes P m s).2) := by
  obtain ⟨b, c⟩ := s
  unfold bytes
  dsimp only [on]
  split
  · rfl
  · split
    · rfl
    · have := bytesLoop_as P ws wr (c.size + 2) (b.prepared, c)
      dsimp only [on] at this
      rw [Client.as_size, this]

theorem string_as (P : ChunkedParser σ) (m) (ws wr) (s : BC σ) : string P m (on ws wr s) = ((string P m s).1, on ws wr (string P m s).2) := by
  unfold string
  rw [bytes_as]
  rcases bytes P m s with ⟨r, s'⟩
  cases r <;> rfl

theorem callback_as (P : ChunkedParser σ) (cb) (ws wr) : ∀ (n : Nat) (seen) (s : BC σ),
    callback P cb n seen (on ws wr s) = ((callback P cb n seen s).1, on ws wr (callback P cb n seen s).2) := by
  intro n
  induction n with
  | zero => intro _ s; rfl
  | succ n ih =>
    intro seen s
    unfold callback
    rw [retrieve_as]
    rcases retrieve P s with ⟨⟨d, e⟩, s'⟩
    dsimp only
    cases e with
    | none =>
      dsimp only
      split
      · exact ih _ _
      · rfl
    | some e => cases e <;> rfl

theorem discard_as (P : ChunkedParser σ) (ws wr) : ∀ (n : Nat) (s : BC σ), discard P n (on ws wr s) = ((discard P n s).1, on ws wr (discard P n s).2) := by
  intro n
  induction n with
  | zero => intro s; rfl
  | succ n ih =>
    intro s
    unfold discard
    rw [retrieve_as]
    rw [show (on ws wr s).1 = s.1 from rfl]
    split
    · rfl
    · rcases retrieve P s with ⟨⟨d, e⟩, s'⟩
      dsimp only
      cases e with
      | none => exact ih _
      | some e => cases e <;> rfl

theorem read_as (P : ChunkedParser σ) (n : Nat) (ws wr) (s : BC σ) : read P n (on ws wr s) = ((read P n s).1, on ws wr (read P n s).2) := by
  unfold read
  rw [retrieve_as]
  rw [show (on ws wr s).1 = s.1 from rfl]
  split <;> rfl

theorem call_as (P : ChunkedParser σ) (m : Nat) (ws wr) (s : BC σ) (k : Call) : call P m (on ws wr s) k = ((call P m s k).1, on ws wr (call P m s k).2) := by
  cases k with
  | retrieve => simp only [call, retrieve_as]
  | bytes => simp only [call, bytes_as]
  | string => simp only [call, string_as]
  | callback cb => simp only [call, show fuel (on ws wr s) = fuel s from rfl, callback_as]
  | read n => simp only [call, read_as]
  | discard => simp only [call, show fuel (on ws wr s) = fuel s from rfl, discard_as]

end Body

/-- The same for what a handler works on. -/
def Act.World.as (ws : List (Option GoErr)) (wr : List Bytes) (w : Act.World σ) : Act.World σ := { w with client := w.client.as ws wr }

/-- Once hijacked, always hijacked. -/
theorem run_hijacked (P : ChunkedParser σ) (m : Nat) {α : Type} (x : Act α) : ∀ (w : Act.World σ), w.hijacked = true → (x.run P m w).2.hijacked = true := by
  induction x with
  | ret a => intro w h; exact h
  | panic => intro w h; exact h
  | body k next ih => intro w h; exact ih _ _ h
  | hijack next ih => intro w h; simp only [Act.run]; exact ih _ _ (by simp [h])
  | read next ih => intro w h; simp only [Act.run, h, if_true]; exact ih _ _ _ (by simp)
  | unread b next ih => intro w h; simp only [Act.run, h, if_true]; exact ih _ (by simp)
  | write b next ih => intro w h; simp only [Act.run, h, if_true]; exact ih _ _ (by simp)

/-- A handler which does not hijack the connection does not notice. -/
theorem run_as (P : ChunkedParser σ) (m : Nat) (ws wr) {α : Type} (x : Act α) : ∀ (w : Act.World σ), (x.run P m w).2.hijacked = false →
    x.run P m (w.as ws wr) = ((x.run P m w).1, (x.run P m w).2.as ws wr) := by
  induction x with
  | ret a => intro w _; rfl
  | panic => intro w _; rfl
  | body k next ih =>
    intro w h
    simp only [Act.run] at h ⊢
    have := Body.call_as P m ws wr (w.body, w.client) k
    rw [show ((w.as ws wr).body, (w.as ws wr).client) = Body.on ws wr (w.body, w.client) from rfl, this]
    exact ih _ _ h
  | hijack next ih =>
    intro w h
    simp only [Act.run] at h ⊢
    rw [show ((w.as ws wr).body, (w.as ws wr).client) = Body.on ws wr (w.body, w.client) from rfl, Body.discard_as]
    exact ih _ _ h
  | read next ih =>
    intro w h
    simp only [Act.run] at h ⊢
    rw [show (w.as ws wr).hijacked = w.hijacked from rfl]
    cases hh : w.hijacked with
    | true =>
      rw [hh] at h
      simp only [if_true] at h
      rw [run_hijacked P m _ _ (by simp)] at h
      cases h
    | false =>
      rw [hh] at h
      exact ih _ _ _ h
  | unread b next ih =>
    intro w h
    simp only [Act.run] at h ⊢
    rw [show (w.as ws wr).hijacked = w.hijacked from rfl]
    cases hh : w.hijacked with
    | true =>
      rw [hh] at h
      simp only [if_true] at h
      rw [run_hijacked P m _ _ (by simp)] at h
      cases h
    | false =>
      rw [hh] at h
      exact ih _ h
  | write b next ih =>
    intro w h
    simp only [Act.run] at h ⊢
    rw [show (w.as ws wr).hijacked = w.hijacked from rfl]
    cases hh : w.hijacked with
    | true =>
      rw [hh] at h
      simp only [if_true] at h
      rw [run_hijacked P m _ _ (by simp)] at h
      cases h
    | false =>
      rw [hh] at h
      exact ih _ _ h

end Indigo
