/-
The serving loop: termination, and one request after another.
-/
import Verif.Spec.Serve
import Verif.Proofs.ServeParser
import Verif.Proofs.ServeBody
import Verif.Proofs.ServeWrite
import Verif.Proofs.ParserHead4
import Verif.Props.Parser
import Verif.Props.Body

namespace Indigo.Serve
open Indigo.Spec Indigo.Body
variable {σ ρ : Type}

/-! ### Termination -/

theorem run_size (P : ChunkedParser σ) (maxAlloc : Nat) {α : Type} (x : Act α) (w : Act.World σ)
    (h : (x.run P maxAlloc w).2.hijacked = false) : (x.run P maxAlloc w).2.client.size ≤ w.client.size :=
  (run_inv P (fun s => s.2.size ≤ w.client.size) (fun s hs => Nat.le_trans (retrieve_size_le P s) hs)
    (fun _ _ _ hs => hs) maxAlloc x w (Nat.le_refl _) h).2

theorem write_size (F : Fold) (d : Serializer) (p : Proto) (req : Request) (f : Fields) (c : Client) :
    (d.write F p req f c).client.size = c.size := by
  rw [Serializer.write_eq_onto]; rfl

theorem closing_some (E : Setup σ ρ) (c : Conn σ ρ) (why : Ended) : ∃ w, (closing E c why).2 = some w := by
  unfold closing
  rcases onError E c (.http Status.ErrCloseConnection) with ⟨o, c⟩
  cases o
  · exact ⟨_, rfl⟩
  · exact ⟨_, rfl⟩

theorem clearing_size (E : Setup σ ρ) (c c' : Conn σ ρ) (h : clearing E c = (c', none)) :
    c'.client.size ≤ c.client.size := by
  have hd := discard_inv E.P (fun s => s.2.size ≤ c.client.size)
    (fun s hs => Nat.le_trans (retrieve_size_le E.P s) hs) (fuel (c.body, c.client)) (c.body, c.client) (Nat.le_refl _)
  unfold clearing at h
  split at h
  · rename_i b cl hx
    obtain ⟨w, hw⟩ := closing_some E { c with body := b, client := cl } .clearFailed
    rw [h] at hw
    cases hw
  · rename_i b cl hx
    rw [hx] at hd
    cases h
    exact hd

theorem respond_size (E : Setup σ ρ) (v : Proto) (c c' : Conn σ ρ) (f : Fields) (h : respond E v c f = (c', none)) :
    c'.client.size ≤ c.client.size ∧ c.req.wasHijacked = false := by
  unfold respond at h
  split at h
  · cases h
  · rename_i hh
    have hh : c.req.wasHijacked = false := by simpa using hh
    dsimp only at h
    split at h
    · cases h
    · obtain ⟨w, hw⟩ := closing_some E
        { c with ser := (c.ser.write E.F v c.req f c.client).ser, client := (c.ser.write E.F v c.req f c.client).client }
        .writeFailed
      rw [h] at hw
      cases hw
    · have := clearing_size E _ _ h
      rw [show _ = c.client.size from write_size E.F c.ser v c.req f c.client] at this
      exact ⟨this, hh⟩

theorem preResponse_client (E : Setup σ ρ) (c : Conn σ ρ) : (preResponse E c).2.client = c.client := by
  unfold preResponse
  split <;> rfl

theorem headersCompleted_size (E : Setup σ ρ) (c c' : Conn σ ρ) (extra : Bytes)
    (h : headersCompleted E c extra = (c', none)) : c'.client.size ≤ (c.client.unread extra).size := by
  unfold headersCompleted at h
  rcases hp : preResponse E c with ⟨v, c0⟩
  have hc := preResponse_client E c
  rw [hp] at h hc
  dsimp only at h hc
  rw [← hc]
  generalize hc1 : ({ c0 with client := c0.client.unread extra, body := c0.body.initFor c0.req } : Conn σ ρ) = c1 at h
  have hs1 : c1.client = c0.client.unread extra := by rw [← hc1]
  rw [← hs1]
  unfold onRequest at h
  rcases hr : E.router.onRequest c1.router c1.req with ⟨act, r'⟩
  rw [hr] at h
  dsimp only at h
  rcases hx : act.run E.P E.maxAlloc c1.world with ⟨o, w⟩
  rw [hx] at h
  cases o with
  | none => cases h
  | some fr =>
    obtain ⟨f, req⟩ := fr
    dsimp only at h
    obtain ⟨h1, h2⟩ := respond_size E v _ _ f h
    have h3 := run_size E.P E.maxAlloc act c1.world (by rw [hx]; exact h2)
    rw [hx] at h3
    exact Nat.le_trans h1 h3

/-- An iteration after which the loop goes on makes the input shorter. -/
theorem step_size (E : Setup σ ρ) (c c' : Conn σ ρ) (h : step E c = (c', none)) : c'.client.size < c.client.size := by
  unfold step at h
  split at h
  · rename_i d e cl hr
    obtain ⟨w, hw⟩ := closing_some E { c with client := cl } .readFailed
    rw [h] at hw
    cases hw
  · rename_i data cl hr
    have hsz := read_progress hr
    split at h
    · cases h
      show cl.size < c.client.size
      by_cases hd : data = []
      · exact hsz.2 hd
      · have := List.length_pos_iff.2 hd
        omega
    · rename_i p extra hp
      have h1 := headersCompleted_size E _ _ _ h
      have h2 := Parser.parse_extra hp
      have h3 := (unread_size cl extra (Body.read_size hr).2.1).1
      dsimp only at h1
      omega
    · rename_i p e hp
      unfold rejecting at h
      split at h
      · cases h
      · cases h
    · cases h

theorem serveLoop_mono (E : Setup σ ρ) : ∀ (n m : Nat) (c : Conn σ ρ), c.client.size < n → c.client.size < m →
    serveLoop E n c = serveLoop E m c := by
  intro n
  induction n with
  | zero => intro m c h; omega
  | succ n ih =>
    intro m c h1 h2
    obtain ⟨m, rfl⟩ := Nat.exists_eq_succ_of_ne_zero (n := m) (by omega)
    simp only [serveLoop]
    rcases hs : step E c with ⟨c', o⟩
    cases o with
    | some w => rfl
    | none =>
      have := step_size E c c' hs
      exact ih m c' (by omega) (by omega)

/-- What happens after an iteration. -/
def go (E : Setup σ ρ) (x : Conn σ ρ × Option Ended) : Conn σ ρ × Option Ended :=
  match x with
  | (c, some why) => (c, some why)
  | (c, none) => serve E c

theorem serve_step (E : Setup σ ρ) (c : Conn σ ρ) : serve E c = go E (step E c) := by
  unfold serve
  simp only [serveLoop]
  rcases hs : step E c with ⟨c', o⟩
  cases o with
  | some w => rfl
  | none =>
    have := step_size E c c' hs
    exact serveLoop_mono E _ _ c' (by omega) (by omega)

theorem serveLoop_ends (E : Setup σ ρ) : ∀ (n : Nat) (c : Conn σ ρ), c.client.size < n →
    ∃ why, (serveLoop E n c).2 = some why := by
  intro n
  induction n with
  | zero => intro c h; omega
  | succ n ih =>
    intro c h
    simp only [serveLoop]
    rcases hs : step E c with ⟨c', o⟩
    cases o with
    | some w => exact ⟨w, rfl⟩
    | none =>
      have := step_size E c c' hs
      exact ih c' (by omega)

/-- Serving always comes to an end: the fuel is enough. -/
theorem serve_ends (E : Setup σ ρ) (c : Conn σ ρ) : ∃ why, (serve E c).2 = some why :=
  serveLoop_ends E _ c (Nat.lt_succ_self _)

/-! ### Reading a head -/

/-- The rest of an iteration after the parser has answered. -/
def finish (E : Setup σ ρ) (c : Conn σ ρ) : Parser.PRes → Conn σ ρ × Option Ended
  | .pending => (c, none)
  | .completed extra => headersCompleted E c extra
  | .error e => rejecting E c e
  | .panic => (c, some .panicked)

theorem step_read (E : Setup σ ρ) (c : Conn σ ρ) (data : Bytes) (cl : Client) (h : c.client.read = ((data, none), cl)) :
    step E c = finish E { c with parser := (Parser.parse E.F c.parser data).1, client := cl }
      (Parser.parse E.F c.parser data).2 := by
  unfold step
  rw [h]
  dsimp only
  rcases Parser.parse E.F c.parser data with ⟨p, r⟩
  cases r <;> rfl

/-- The data of the coming reads. -/
def segs (c : Client) : List Bytes := (if c.pending = [] then [] else [c.pending]) ++ c.conn.map (·.1)

theorem segs_flatten (c : Client) : (segs c).flatten = c.stream := by
  unfold segs Client.stream
  split
  · rename_i h; simp [h]
  · simp

theorem read_segs {c : Client} (q : Quiet c) (d : Bytes) (ds : List Bytes) (h : segs c = d :: ds) :
    ∃ c', (∀ post, (followedBy c post).read = ((d, none), followedBy c' post)) ∧ c'.pending = [] ∧ segs c' = ds ∧
      Quiet c' ∧ c'.written = c.written ∧ c'.wscript = c.wscript ∧ c'.size < c.size := by
  unfold segs at h
  split at h
  · rename_i hp
    cases hc : c.conn with
    | nil => simp [hc] at h
    | cons ev conn =>
      have hev : ev.2 = none := q ev (by rw [hc]; simp)
      obtain ⟨ed, ee⟩ := ev
      simp only at hev
      subst hev
      simp [hc] at h
      refine ⟨{ c with conn }, fun post => ?_, hp, ?_, ?_, rfl, rfl, ?_⟩
      · simp [Client.read, followedBy, hp, hc, h.1]
      · simp [segs, hp, h.2]
      · intro e he; exact q e (by rw [hc]; simp at he; simp [he])
      · simp [Client.size, hp, hc]
  · rename_i hp
    simp at h
    have hl : c.pending.length > 0 := List.length_pos_iff.2 hp
    refine ⟨{ c with pending := [] }, fun post => ?_, rfl, ?_, q, rfl, rfl, ?_⟩
    · unfold Client.read; rw [if_pos (show (followedBy c post).pending.length > 0 from hl), ← h.1]; rfl
    · simp [segs, h.2]
    · simp [Client.size]; omega

/-- Iterations while a head is coming in. -/
theorem serve_feed (E : Setup σ ρ) (post : List (Bytes × Option GoErr)) (n : Nat) : ∀ (c : Conn σ ρ) (cl : Client) p' res rest,
    cl.size ≤ n → c.client = followedBy cl post → Quiet cl →
    Parser.feed E.F c.parser (segs cl) = (p', res, rest) → res ≠ .pending →
    ∃ cl', Quiet cl' ∧ cl'.pending = [] ∧ segs cl' = rest ∧ cl'.written = cl.written ∧ cl'.wscript = cl.wscript ∧
      serve E c = go E (finish E { c with parser := p', client := followedBy cl' post } res) := by
  induction n with
  | zero =>
    intro c cl p' res rest hn hc q hf hr
    have : segs cl = [] := by
      unfold Client.size at hn
      have h1 : cl.pending = [] := by cases hp : cl.pending <;> simp [hp] at hn ⊢
      have h2 : cl.conn = [] := by
        cases hp : cl.conn with
        | nil => rfl
        | cons e es => rw [hp] at hn; simp at hn
      simp [segs, h1, h2]
    rw [this] at hf
    simp [Parser.feed] at hf
    exact absurd hf.2.1.symm hr
  | succ n ih =>
    intro c cl p' res rest hn hc q hf hr
    cases hs : segs cl with
    | nil =>
      rw [hs] at hf
      simp [Parser.feed] at hf
      exact absurd hf.2.1.symm hr
    | cons d ds =>
      obtain ⟨cl1, h1, h2, h3, h4, h5, h6, h7⟩ := read_segs q d ds hs
      have hst := step_read E c d (followedBy cl1 post) (by rw [hc]; exact h1 post)
      rw [hs] at hf
      simp only [Parser.feed] at hf
      rcases hp : Parser.parse E.F c.parser d with ⟨p1, r1⟩
      rw [hp] at hf hst
      rw [serve_step, hst]
      cases r1 with
      | pending =>
        simp only at hf
        rw [← h3] at hf
        obtain ⟨cl', g1, g2, g3, g4, g5, g6⟩ := ih { c with parser := p1, client := followedBy cl1 post } cl1 p' res rest
          (by omega) rfl h4 hf hr
        exact ⟨cl', g1, g2, g3, g4.trans h5, g5.trans h6, g6⟩
      | completed ex =>
        simp only [Prod.mk.injEq] at hf
        obtain ⟨rfl, rfl, rfl⟩ := hf
        exact ⟨cl1, h4, h2, h3, h5, h6, rfl⟩
      | error e =>
        simp only [Prod.mk.injEq] at hf
        obtain ⟨rfl, rfl, rfl⟩ := hf
        exact ⟨cl1, h4, h2, h3, h5, h6, rfl⟩
      | panic =>
        simp only [Prod.mk.injEq] at hf
        obtain ⟨rfl, rfl, rfl⟩ := hf
        exact ⟨cl1, h4, h2, h3, h5, h6, rfl⟩

end Indigo.Serve
