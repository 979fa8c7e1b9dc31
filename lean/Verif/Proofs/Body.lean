/-
Lemmas about bodies.
-/
import Verif.Spec.Body

namespace Indigo.Body
open Indigo.Spec
variable {σ : Type}

theorem read_size {c c' : Client} {d : Bytes} (h : c.read = ((d, none), c')) :
    c'.size + d.length + (if c.pending = [] then 1 else 0) = c.size ∧ c'.pending = [] ∧
    c.stream = d ++ c'.stream ∧ (Quiet c → Quiet c') := by
  unfold Client.read at h
  split at h
  · rename_i hp
    simp at h; obtain ⟨rfl, rfl⟩ := h
    have : c.pending ≠ [] := by intro e; simp [e] at hp
    refine ⟨by simp [Client.size, this]; omega, rfl, by simp [Client.stream], fun q => q⟩
  · rename_i hp
    have hp : c.pending = [] := by simpa using hp
    split at h
    · simp at h
    · rename_i ev conn hc
      simp at h; obtain ⟨rfl, rfl⟩ := h
      refine ⟨by simp [Client.size, hp, hc]; omega, hp, by simp [Client.stream, hp, hc], ?_⟩
      intro q e he; exact q e (by rw [hc]; simp [he])

theorem read_err {c c' : Client} {d : Bytes} {e : GoErr} (h : c.read = ((d, some e), c')) :
    c.pending = [] ∧ c'.pending = [] ∧ c'.size ≤ c.size ∧ (Quiet c → d = [] ∧ c.stream = [] ∧ c'.stream = []) := by
  unfold Client.read at h
  split at h
  · simp at h
  · rename_i hp
    have hp : c.pending = [] := by simpa using hp
    split at h
    · rename_i hc
      simp at h; obtain ⟨⟨rfl, rfl⟩, rfl⟩ := h
      exact ⟨hp, hp, Nat.le_refl _, fun _ => by simp [Client.stream, hp, hc]⟩
    · rename_i ev conn hc
      simp at h; obtain ⟨rfl, rfl⟩ := h
      refine ⟨hp, hp, by simp [Client.size, hc], ?_⟩
      intro q
      have := q (d, some e) (by rw [hc]; simp)
      simp at this

theorem unread_size (c : Client) (x : Bytes) (h : c.pending = []) : (c.unread x).size = c.size + x.length ∧
    (c.unread x).stream = x ++ c.stream ∧ (Quiet c → Quiet (c.unread x)) := by
  simp [Client.unread, Client.size, Client.stream, h]
  refine ⟨by omega, fun q => q⟩

theorem checkEOF_none (b : Body σ) : b.checkEOF none = b := by simp [checkEOF]

theorem read_progress {c c' : Client} {d : Bytes} (h : c.read = ((d, none), c')) :
    c'.size + d.length ≤ c.size ∧ (d = [] → c'.size < c.size) := by
  obtain ⟨h1, _, _, _⟩ := read_size h
  refine ⟨by omega, ?_⟩
  intro hd
  by_cases hp : c.pending = []
  · simp [hp] at h1; omega
  · unfold Client.read at h
    rw [if_pos (List.length_pos_iff.2 hp)] at h
    simp at h; rw [hd] at h; exact absurd h.1 hp

theorem plainRead_size {s s' : BC σ} {d : Bytes} (h : plainRead s = ((d, none), s')) : s'.2.size < s.2.size := by
  obtain ⟨b, c⟩ := s
  simp only [plainRead] at h
  split at h
  · simp at h
  · split at h
    · simp at h
    · rename_i hl data c1 hr
      obtain ⟨h1, h2, h3, _⟩ := read_size hr
      split at h
      · simp at h
      · split at h
        · simp at h
        · simp at h; obtain ⟨rfl, rfl⟩ := h
          simp
          obtain ⟨p1, p2⟩ := read_progress hr
          by_cases hd : data = []
          · exact p2 hd
          · have := List.length_pos_iff.2 hd
            omega

theorem chunkedDone_none {b : Body σ} {c : Client} {chunk extra d : Bytes} {err : Option GoErr} {s' : BC σ}
    (h : chunkedDone b c chunk extra err = ((d, none), s')) : err = none ∧ d = chunk ∧ s'.2 = c.unread extra := by
  unfold chunkedDone at h
  split at h
  · rename_i hf
    simp at h
    rw [h.1.2] at hf; simp [isFatal] at hf
  · split at h
    · simp at h
    · simp at h
      obtain ⟨⟨rfl, rfl⟩, rfl⟩ := h
      simp

theorem chunkedRead_err (P : ChunkedParser σ) {b : Body σ} {c c1 : Client} {data : Bytes} {e : GoErr}
    (hr : c.read = ((data, some e), c1)) : chunkedRead P (b, c) = (([], some e), (b, c1)) := by
  simp [chunkedRead, hr]

theorem chunkedRead_ok (P : ChunkedParser σ) {b : Body σ} {c c1 : Client} {data : Bytes}
    (hr : c.read = ((data, none), c1)) {st : σ} {chunk extra : Bytes} {err : Option GoErr}
    (hP : P.parse b.parser data b.hasTrailer = (st, chunk, extra, err)) :
    chunkedRead P (b, c) = chunkedDone { b with parser := st } c1 chunk extra err := by
  simp [chunkedRead, hr, hP]

theorem chunkedRead_size (P : ChunkedParser σ) {s s' : BC σ} {d : Bytes}
    (h : chunkedRead P s = ((d, none), s')) : s'.2.size < s.2.size := by
  obtain ⟨b, c⟩ := s
  match hr : c.read with
  | ((data, some e), c1) => rw [chunkedRead_err P hr] at h; simp at h
  | ((data, none), c1) =>
    obtain ⟨h1, h2, h3, _⟩ := read_size hr
    obtain ⟨hp1, hp2⟩ := read_progress hr
    obtain ⟨used, hu1, hu2⟩ := P.suffix b.parser data b.hasTrailer
    rcases hP : P.parse b.parser data b.hasTrailer with ⟨st, chunk, extra, err⟩
    rw [chunkedRead_ok P hr hP] at h
    rw [hP] at hu1
    obtain ⟨_, _, e⟩ := chunkedDone_none h
    simp only at hu1
    have hlen : data.length = used.length + extra.length := by
      have := congrArg List.length hu1
      rwa [List.length_append] at this
    rw [e, (unread_size c1 _ h2).1]
    show c1.size + extra.length < c.size
    by_cases hd : data = []
    · have := hp2 hd
      have : data.length = 0 := by simp [hd]
      omega
    · have := List.length_pos_iff.2 (hu2 hd)
      omega

theorem retrieve_size (P : ChunkedParser σ) {s s' : BC σ} {d : Bytes} (h : retrieve P s = ((d, none), s')) :
    s'.2.size < s.2.size := by
  unfold retrieve at h
  split at h
  · simp at h
  · simp only at h
    split at h
    · generalize hx : chunkedRead P s = x at h
      obtain ⟨r, t⟩ := x
      simp at h
      obtain ⟨rfl, rfl⟩ := h
      exact chunkedRead_size P hx
    · generalize hx : plainRead s = x at h
      obtain ⟨r, t⟩ := x
      simp at h
      obtain ⟨rfl, rfl⟩ := h
      exact plainRead_size hx

theorem pieces_total (P : ChunkedParser σ) (s : BC σ) : ∃ ds e s', Pieces P s ds e s' := by
  generalize hn : s.2.size = n
  induction n using Nat.strongRecOn generalizing s with
  | _ n ih =>
    match hr : retrieve P s with
    | ((d, some e), s') => exact ⟨[d], e, s', .last hr⟩
    | ((d, none), s1) =>
      have := retrieve_size P hr
      obtain ⟨ds, e, s', h⟩ := ih s1.2.size (by omega) s1 rfl
      exact ⟨d :: ds, e, s', .more hr h⟩

theorem pieces_det (P : ChunkedParser σ) {s : BC σ} {ds ds' e e' s' s''} (h : Pieces P s ds e s')
    (h' : Pieces P s ds' e' s'') : ds = ds' ∧ e = e' ∧ s' = s'' := by
  induction h generalizing ds' with
  | last hr =>
    cases h' with
    | last hr' => rw [hr] at hr'; simp at hr'; obtain ⟨⟨rfl, rfl⟩, rfl⟩ := hr'; simp
    | more hr' _ => rw [hr] at hr'; simp at hr'
  | more hr _ ih =>
    cases h' with
    | last hr' => rw [hr] at hr'; simp at hr'
    | more hr' h' =>
      rw [hr] at hr'; simp at hr'; obtain ⟨rfl, rfl⟩ := hr'
      obtain ⟨rfl, rfl, rfl⟩ := ih h'
      simp

/-- At EOF `Retrieve` has no effect. -/
theorem retrieve_eof (P : ChunkedParser σ) {s : BC σ} (h : s.1.eof = true) :
    retrieve P s = (([], some .eof), s) := by simp [retrieve, h]

/-- `Retrieve` reporting EOF leaves the body at EOF. -/
theorem retrieve_eof_after (P : ChunkedParser σ) {s s' : BC σ} {d : Bytes}
    (h : retrieve P s = ((d, some .eof), s')) : s'.1.eof = true := by
  unfold retrieve at h
  split at h
  · simp at h; rw [← h.2]; assumption
  · simp only at h
    split at h
    · generalize chunkedRead P s = x at h
      simp at h
      obtain ⟨h1, rfl⟩ := h
      simp [checkEOF, h1]
    · generalize plainRead s = x at h
      simp at h
      obtain ⟨h1, rfl⟩ := h
      simp [checkEOF, h1]

theorem pieces_eof (P : ChunkedParser σ) {s s' : BC σ} {ds} (h : Pieces P s ds .eof s') : s'.1.eof = true := by
  generalize he : GoErr.eof = e at h
  induction h with
  | last hr => subst he; exact retrieve_eof_after P hr
  | more _ _ ih => exact ih he

/-! ### Plain bodies -/

theorem retrieve_plain (P : ChunkedParser σ) {b : Body σ} {c : Client} (hc : b.isChunked = false)
    (he : b.eof = false) : retrieve P (b, c) =
      ((plainRead (b, c)).1, ((plainRead (b, c)).2.1.checkEOF (plainRead (b, c)).1.2, (plainRead (b, c)).2.2)) := by
  simp [retrieve, hc, he]

theorem plain_pieces (P : ChunkedParser σ) (n : Nat) : ∀ (b : Body σ) (c : Client) (body after : Bytes),
    c.size ≤ n → b.isChunked = false → b.eof = false → b.bytesLeft ≤ b.maxBodyLen → b.bytesLeft = body.length →
    Quiet c → c.stream = body ++ after →
    ∃ ds b' c', Pieces P (b, c) ds .eof (b', c') ∧ ds.flatten = body ∧ c'.stream = after ∧ Quiet c' ∧
      b' = { b with bytesLeft := 0, eof := true } ∧ c'.size ≤ c.size ∧ c'.written = c.written ∧ c'.wscript = c.wscript := by
  induction n with
  | zero =>
    intro b c body after hn h1 h2 h3 h4 hq hs
    have hst : c.stream = [] := by
      have : c.pending = [] ∧ c.conn = [] := by
        unfold Client.size at hn
        constructor
        · cases hp : c.pending <;> simp [hp] at hn ⊢
        · cases hp : c.conn <;> simp [hp] at hn ⊢
      simp [Client.stream, this.1, this.2]
    rw [hst] at hs
    have hb : body = [] := by
      cases body <;> simp at hs ⊢
    have ha : after = [] := by
      subst hb; simpa using hs
    subst hb; subst ha
    simp at h4
    refine ⟨[[]], { b with bytesLeft := 0, eof := true }, c, .last ?_, rfl, hst, hq, rfl, Nat.le_refl _, rfl, rfl⟩
    rw [retrieve_plain P h1 h2]
    simp [plainRead, h4, checkEOF]
  | succ n ih =>
    intro b c body after hn h1 h2 h3 h4 hq hs
    by_cases hb0 : b.bytesLeft = 0
    · have hb : body = [] := by cases body <;> simp_all
      subst hb
      refine ⟨[[]], { b with bytesLeft := 0, eof := true }, c, .last ?_, rfl, by simpa using hs, hq, rfl, Nat.le_refl _, rfl, rfl⟩
      rw [retrieve_plain P h1 h2]
      simp [plainRead, hb0, checkEOF]
    · match hr : c.read with
      | ((d, some e), c1) =>
        obtain ⟨_, _, _, hx⟩ := read_err hr
        obtain ⟨_, hx, _⟩ := hx hq
        rw [hx] at hs
        have : body = [] := by cases body <;> simp at hs ⊢
        subst this; simp at h4; exact absurd h4 hb0
      | ((d, none), c1) =>
        obtain ⟨r1, r2, r3, r4⟩ := read_size hr
        obtain ⟨p1, p2⟩ := read_progress hr
        have hcw : c1.written = c.written ∧ c1.wscript = c.wscript := by
          unfold Client.read at hr
          split at hr
          · simp at hr; rw [← hr.2]; simp
          · split at hr
            · simp at hr
            · simp at hr; rw [← hr.2]; simp
        rw [hs] at r3
        have hpl : plainRead (b, c) = if d.length ≥ b.bytesLeft then
            ((d.take b.bytesLeft, some .eof), ({ b with bytesLeft := 0 }, c1.unread (d.drop b.bytesLeft)))
            else ((d, none), ({ b with bytesLeft := b.bytesLeft - d.length }, c1)) := by
          simp only [plainRead, hb0, if_false, hr]
          rw [if_neg (by omega)]
        by_cases hd : d.length ≥ b.bytesLeft
        · rw [if_pos hd] at hpl
          refine ⟨[d.take b.bytesLeft], { b with bytesLeft := 0, eof := true }, c1.unread (d.drop b.bytesLeft),
            .last ?_, ?_, ?_, ?_, rfl, ?_, by simp [Client.unread, hcw.1], by simp [Client.unread, hcw.2]⟩
          · rw [retrieve_plain P h1 h2, hpl]
            simp [checkEOF]
          · simp
            have := congrArg (List.take b.bytesLeft) r3
            rw [h4, List.take_append_of_le_length (by omega), List.take_append_of_le_length (by omega)] at this
            simp at this; rw [h4]; exact this.symm
          · rw [(unread_size c1 _ r2).2.1]
            have := congrArg (List.drop b.bytesLeft) r3
            rw [h4] at this
            rw [List.drop_append_of_le_length (l₂ := c1.stream) (by omega)] at this
            simp at this
            rw [h4]; exact this.symm
          · exact (unread_size c1 _ r2).2.2 (r4 hq)
          · rw [(unread_size c1 _ r2).1]
            simp; omega
        · rw [if_neg hd] at hpl
          have hd : d.length < b.bytesLeft := by omega
          have hbody : body = d ++ body.drop d.length := by
            have := congrArg (List.take d.length) r3
            rw [List.take_append_of_le_length (by omega)] at this
            simp at this
            calc body = body.take d.length ++ body.drop d.length := (List.take_append_drop _ _).symm
              _ = _ := by rw [this]
          have hs' : c1.stream = body.drop d.length ++ after := by
            rw [hbody, List.append_assoc] at r3
            exact (List.append_cancel_left r3).symm
          obtain ⟨ds, b', c', q1, q2, q3, q4, q5, q6, q7, q8⟩ := ih { b with bytesLeft := b.bytesLeft - d.length } c1
            (body.drop d.length) after
            (by
              have : c1.size < c.size := by
                by_cases hde : d = []
                · exact p2 hde
                · have := List.length_pos_iff.2 hde
                  omega
              omega)
            h1 h2 (by simp; omega) (by simp; omega) (r4 hq) hs'
          refine ⟨d :: ds, b', c', .more ?_ q1, ?_, q3, q4, ?_, by omega, by rw [q7, hcw.1], by rw [q8, hcw.2]⟩
          · rw [retrieve_plain P h1 h2, hpl]
            simp [checkEOF]
          · simp [q2]; exact hbody.symm
          · rw [q5]

/-! ### The fields which `Retrieve` does not look at -/

/-- Fields of a body used by the other accessors only. -/
structure Aux where
  full : Bytes
  cap : Nat
  pending : Bytes
  error : Option GoErr

def withAux (b : Body σ) (a : Aux) : Body σ :=
  { b with fullBodyBuff := a.full, fullCap := a.cap, stashPending := a.pending, stashError := a.error }

def aux (b : Body σ) : Aux := ⟨b.fullBodyBuff, b.fullCap, b.stashPending, b.stashError⟩

theorem withAux_aux (b : Body σ) : withAux b (aux b) = b := rfl
theorem withAux_withAux (b : Body σ) (a a' : Aux) : withAux (withAux b a) a' = withAux b a' := rfl
theorem aux_withAux (b : Body σ) (a : Aux) : aux (withAux b a) = a := rfl

theorem chunkedDone_aux (b : Body σ) (c : Client) (chunk extra : Bytes) (err : Option GoErr) (a : Aux) :
    chunkedDone (withAux b a) c chunk extra err = ((chunkedDone b c chunk extra err).1,
      (withAux (chunkedDone b c chunk extra err).2.1 a, (chunkedDone b c chunk extra err).2.2)) := by
  unfold chunkedDone
  split
  · rfl
  · split
    · rename_i h; rw [if_pos (by exact h)]
    · rename_i h; rw [if_neg (by exact h)]; rfl

theorem chunkedRead_aux (P : ChunkedParser σ) (b : Body σ) (c : Client) (a : Aux) :
    chunkedRead P (withAux b a, c) = ((chunkedRead P (b, c)).1,
      (withAux (chunkedRead P (b, c)).2.1 a, (chunkedRead P (b, c)).2.2)) := by
  match hr : c.read with
  | ((data, some e), c1) => rw [chunkedRead_err P hr, chunkedRead_err P hr]
  | ((data, none), c1) =>
    rcases hP : P.parse b.parser data b.hasTrailer with ⟨st, chunk, extra, err⟩
    rw [chunkedRead_ok P hr hP, chunkedRead_ok P hr (b := withAux b a) hP]
    exact chunkedDone_aux { b with parser := st } c1 chunk extra err a

theorem plainRead_aux (b : Body σ) (c : Client) (a : Aux) :
    plainRead (withAux b a, c) = ((plainRead (b, c)).1,
      (withAux (plainRead (b, c)).2.1 a, (plainRead (b, c)).2.2)) := by
  simp only [plainRead]
  have h1 : (withAux b a).bytesLeft = b.bytesLeft := rfl
  have h2 : (withAux b a).maxBodyLen = b.maxBodyLen := rfl
  rw [h1, h2]
  by_cases h0 : b.bytesLeft = 0
  · simp [h0]
  · simp only [h0, if_false]
    match hr : c.read with
    | ((data, some e), c1) => rfl
    | ((data, none), c1) =>
      simp only
      split
      · rfl
      · split <;> rfl

theorem retrieve_aux (P : ChunkedParser σ) (b : Body σ) (c : Client) (a : Aux) :
    retrieve P (withAux b a, c) = ((retrieve P (b, c)).1,
      (withAux (retrieve P (b, c)).2.1 a, (retrieve P (b, c)).2.2)) := by
  unfold retrieve
  have h1 : (withAux b a).eof = b.eof := rfl
  have h2 : (withAux b a).isChunked = b.isChunked := rfl
  have h3 : ∀ (b : Body σ) e, checkEOF (withAux b a) e = withAux (checkEOF b e) a := by
    intro b e; unfold checkEOF; split <;> rfl
  simp only [h1, h2]
  by_cases he : b.eof = true
  · simp [he]
  · simp only [he, Bool.false_eq_true, if_false]
    by_cases hc : b.isChunked = true
    · simp only [hc, if_true, chunkedRead_aux P b c a, h3]
    · simp only [hc, Bool.false_eq_true, if_false, plainRead_aux b c a, h3]

/-- `Retrieve` keeps these fields. -/
theorem retrieve_keeps (P : ChunkedParser σ) {b b' : Body σ} {c c' : Client} {r}
    (h : retrieve P (b, c) = (r, (b', c'))) : aux b' = aux b := by
  have := retrieve_aux P b c (aux b)
  rw [withAux_aux, h] at this
  simp at this
  rw [this, aux_withAux]

theorem pieces_aux (P : ChunkedParser σ) {s s' : BC σ} {ds e} (a : Aux) (h : Pieces P s ds e s') :
    Pieces P (withAux s.1 a, s.2) ds e (withAux s'.1 a, s'.2) := by
  induction h with
  | @last s d e s' hr =>
    refine .last ?_
    have := retrieve_aux P s.1 s.2 a
    rw [show (s.1, s.2) = s from rfl, hr] at this
    exact this
  | @more s d s1 ds e s' hr _ ih =>
    refine .more ?_ ih
    have := retrieve_aux P s.1 s.2 a
    rw [show (s.1, s.2) = s from rfl, hr] at this
    exact this

theorem pieces_keeps (P : ChunkedParser σ) {s s' : BC σ} {ds e} (h : Pieces P s ds e s') : aux s'.1 = aux s.1 := by
  induction h with
  | last hr => exact retrieve_keeps P hr
  | more hr _ ih => rw [ih]; exact retrieve_keeps P hr

/-! ### The accessors -/

def afterFull (s : BC σ) (f : Bytes) : BC σ := ({ s.1 with fullBodyBuff := f }, s.2)

/-- What `Bytes` answers, depending on how the body ends. -/
def bytesAnswer (full : Bytes) : GoErr → Option Bytes × Option GoErr
  | .eof => (some full, none)
  | e => (none, some e)

theorem bytesLoop_pieces (P : ChunkedParser σ) {s s' : BC σ} {ds e} (h : Pieces P s ds e s') :
    ∀ (f : Bytes) (fuel : Nat), s.2.size < fuel →
    bytesLoop P fuel (afterFull s f) = (bytesAnswer (f ++ ds.flatten) e, afterFull s' (f ++ ds.flatten)) := by
  induction h with
  | @last s d e s' hr =>
    intro f fuel hf
    obtain ⟨n, rfl⟩ := Nat.exists_eq_succ_of_ne_zero (n := fuel) (by omega)
    have hx := retrieve_aux P s.1 s.2 ⟨f, s.1.fullCap, s.1.stashPending, s.1.stashError⟩
    rw [show (s.1, s.2) = s from rfl, hr] at hx
    have hk := retrieve_keeps P (b := s.1) (c := s.2) hr
    simp only [bytesLoop, afterFull]
    have : ({ s.1 with fullBodyBuff := f } : Body σ) = withAux s.1 ⟨f, s.1.fullCap, s.1.stashPending, s.1.stashError⟩ := rfl
    rw [this, hx]
    simp only
    have hb : ∀ g, ({ withAux s'.1 ⟨f, s.1.fullCap, s.1.stashPending, s.1.stashError⟩ with fullBodyBuff := g } : Body σ) =
        { s'.1 with fullBodyBuff := g } := by
      intro g
      simp only [aux, Aux.mk.injEq] at hk
      simp [withAux, hk]
    cases e <;> simp [bytesAnswer, hb] <;> simp [withAux]
  | @more s d s1 ds e s' hr _ ih =>
    intro f fuel hf
    obtain ⟨n, rfl⟩ := Nat.exists_eq_succ_of_ne_zero (n := fuel) (by omega)
    have hx := retrieve_aux P s.1 s.2 ⟨f, s.1.fullCap, s.1.stashPending, s.1.stashError⟩
    rw [show (s.1, s.2) = s from rfl, hr] at hx
    have hk := retrieve_keeps P (b := s.1) (c := s.2) hr
    have hsz := retrieve_size P hr
    simp only [bytesLoop, afterFull]
    have : ({ s.1 with fullBodyBuff := f } : Body σ) = withAux s.1 ⟨f, s.1.fullCap, s.1.stashPending, s.1.stashError⟩ := rfl
    rw [this, hx]
    simp only
    have hb : ∀ g, ({ withAux s1.1 ⟨f, s.1.fullCap, s.1.stashPending, s.1.stashError⟩ with fullBodyBuff := g } : Body σ) =
        { s1.1 with fullBodyBuff := g } := by
      intro g
      simp only [aux, Aux.mk.injEq] at hk
      simp [withAux, hk]
    rw [hb]
    have := ih (f ++ d) n (by omega)
    simp only [afterFull] at this
    simp only [withAux]
    rw [this]
    simp

/-- `Discard`. -/
theorem discard_pieces (P : ChunkedParser σ) {s s' : BC σ} {ds e} (h : Pieces P s ds e s') :
    ∀ (fuel : Nat), s.2.size < fuel → discard P fuel s = (if e = .eof then none else some e, s') := by
  induction h with
  | @last s d e s' hr =>
    intro fuel hf
    obtain ⟨n, rfl⟩ := Nat.exists_eq_succ_of_ne_zero (n := fuel) (by omega)
    simp only [discard]
    by_cases he : s.1.eof = true
    · rw [retrieve_eof P he] at hr
      simp at hr
      obtain ⟨⟨_, rfl⟩, rfl⟩ := hr
      simp [he]
    · simp only [he, Bool.false_eq_true, if_false, hr]
      cases e <;> simp
  | @more s d s1 ds e s' hr _ ih =>
    intro fuel hf
    obtain ⟨n, rfl⟩ := Nat.exists_eq_succ_of_ne_zero (n := fuel) (by omega)
    have hsz := retrieve_size P hr
    simp only [discard]
    by_cases he : s.1.eof = true
    · rw [retrieve_eof P he] at hr
      simp at hr
    · simp only [he, Bool.false_eq_true, if_false, hr]
      exact ih n (by omega)

/-- `Callback` with a callback which never fails: it sees the pieces. -/
theorem callback_pieces (P : ChunkedParser σ) {s s' : BC σ} {ds e} (h : Pieces P s ds e s')
    (cb : List Bytes → Bytes → Option GoErr) (hcb : ∀ l d, cb l d = none) :
    ∀ (seen : List Bytes) (fuel : Nat), s.2.size < fuel →
    callback P cb fuel seen s =
      (if e = .eof then (seen ++ ds, none) else (seen ++ ds.dropLast, some e), s') := by
  induction h with
  | @last s d e s' hr =>
    intro seen fuel hf
    obtain ⟨n, rfl⟩ := Nat.exists_eq_succ_of_ne_zero (n := fuel) (by omega)
    simp only [callback, hr]
    cases e <;> simp [hcb]
  | @more s d s1 ds e s' hr hp ih =>
    intro seen fuel hf
    obtain ⟨n, rfl⟩ := Nat.exists_eq_succ_of_ne_zero (n := fuel) (by omega)
    have hsz := retrieve_size P hr
    simp only [callback, hr, hcb]
    rw [ih _ n (by omega)]
    have : ds ≠ [] := by cases hp <;> simp
    simp [List.dropLast_cons_of_ne_nil this]

/-- What is still to be read through `Read`: bytes `R`, then error `e`; `m` bounds the number of reads. -/
def Rem (P : ChunkedParser σ) (s : BC σ) (R : Bytes) (e : GoErr) (m : Nat) : Prop :=
  (s.1.stashError = none ∧ ∃ ds s', Pieces P s ds e s' ∧ R = s.1.stashPending ++ ds.flatten ∧
    R.length + ds.length ≤ m) ∨
  (s.1.stashError = some e ∧ R = s.1.stashPending ∧ R.length ≤ m)

/-- The second half of `Read`. -/
def copyOut (n : Nat) (s : BC σ) : (Bytes × Option GoErr) × BC σ :=
  ((s.1.stashPending.take n,
    if (s.1.stashPending.drop n).length = 0 then s.1.stashError else none),
   ({ s.1 with stashPending := s.1.stashPending.drop n }, s.2))

theorem read_eq (P : ChunkedParser σ) (n : Nat) (s : BC σ) :
    read P n s = if s.1.stashPending.length = 0 ∧ s.1.stashError = none then
      copyOut n ({ (retrieve P s).2.1 with stashPending := (retrieve P s).1.1, stashError := (retrieve P s).1.2 },
        (retrieve P s).2.2)
    else copyOut n s := by
  unfold read copyOut
  by_cases h : s.1.stashPending.length = 0 ∧ s.1.stashError = none
  · simp only [if_pos h]
  · simp only [if_neg h]

theorem copyOut_rem (P : ChunkedParser σ) (n : Nat) {s : BC σ} {R : Bytes} {e : GoErr} {m : Nat}
    (h : Rem P s R e m) (hne : s.1.stashPending ≠ [] ∨ s.1.stashError ≠ none) :
    ∃ d err s' R' m', copyOut n s = ((d, err), s') ∧ R = d ++ R' ∧ Rem P s' R' e m' ∧ m' ≤ m ∧
      (err = none ∨ (err = some e ∧ R' = [])) ∧ (n = 0 ∨ err = some e ∨ m' < m) := by
  obtain ⟨b, c⟩ := s
  rcases h with ⟨h1, ds, s', hp, hR, hm⟩ | ⟨h1, hR, hm⟩
  · have hpe : b.stashPending ≠ [] := by
      rcases hne with h | h
      · exact h
      · exact absurd h1 h
    have hpos := List.length_pos_iff.2 hpe
    refine ⟨_, _, _, b.stashPending.drop n ++ ds.flatten,
      (b.stashPending.drop n ++ ds.flatten).length + ds.length, rfl, ?_, ?_, ?_, ?_, ?_⟩
    · rw [hR]; simp
      rw [← List.append_assoc, List.take_append_drop]
    · left
      refine ⟨h1, ds, _, pieces_aux P ⟨b.fullBodyBuff, b.fullCap, b.stashPending.drop n, b.stashError⟩ hp, rfl, Nat.le_refl _⟩
    · rw [hR] at hm; simp at hm ⊢; omega
    · left; simp at h1; simp [h1]
    · by_cases hn : n = 0
      · exact .inl hn
      · right; right
        rw [hR] at hm; simp at hm ⊢; omega
  · refine ⟨_, _, _, b.stashPending.drop n, (b.stashPending.drop n).length, rfl, ?_, ?_, ?_, ?_, ?_⟩
    · rw [hR]; simp
    · right; exact ⟨h1, rfl, Nat.le_refl _⟩
    · rw [hR] at hm; simp at hm ⊢; omega
    · simp only at h1
      simp only [h1]
      by_cases hd : (b.stashPending.drop n).length = 0
      · rw [if_pos hd]; right; exact ⟨rfl, List.eq_nil_of_length_eq_zero hd⟩
      · rw [if_neg hd]; exact .inl rfl
    · simp only at h1
      simp only [h1]
      by_cases hd : (b.stashPending.drop n).length = 0
      · rw [if_pos hd]; exact .inr (.inl rfl)
      · rw [if_neg hd]
        by_cases hn : n = 0
        · exact .inl hn
        · right; right
          rw [hR] at hm; simp at hm hd ⊢; omega

theorem read_rem (P : ChunkedParser σ) (n : Nat) {s : BC σ} {R : Bytes} {e : GoErr} {m : Nat} (h : Rem P s R e m) :
    ∃ d err s' R' m', read P n s = ((d, err), s') ∧ R = d ++ R' ∧ Rem P s' R' e m' ∧ m' ≤ m ∧
      (err = none ∨ (err = some e ∧ R' = [])) ∧ (n = 0 ∨ err = some e ∨ m' < m) := by
  rw [read_eq]
  by_cases hc : s.1.stashPending.length = 0 ∧ s.1.stashError = none
  · rw [if_pos hc]
    have hpe : s.1.stashPending = [] := by simpa using hc.1
    rcases h with ⟨h1, ds, s', hp, hR, hm⟩ | ⟨h1, hR, hm⟩
    · rw [hpe, List.nil_append] at hR
      cases hp with
      | @last _ d _ _ hr =>
        rw [hr]
        simp only
        obtain ⟨d', err, s'', R', m', g1, g2, g3, g4, g5, g6⟩ := copyOut_rem P n
          (s := ({ s'.1 with stashPending := d, stashError := some e }, s'.2)) (R := R) (e := e) (m := R.length)
          (.inr ⟨rfl, by simpa using hR, Nat.le_refl _⟩) (.inr (by simp))
        refine ⟨d', err, s'', R', m', g1, g2, g3, by simp at hm; omega, g5, ?_⟩
        simp at hm
        rcases g6 with g6 | g6 | g6
        · exact .inl g6
        · exact .inr (.inl g6)
        · right; right; omega
      | @more _ d s1 ds' _ _ hr hp' =>
        rw [hr]
        simp only
        by_cases hd : d = []
        · -- an empty piece: nothing is returned
          refine ⟨[], none, ({ s1.1 with stashPending := [], stashError := none }, s1.2), R, R.length + ds'.length,
            by simp [copyOut, hd], rfl, ?_, by simp at hm; omega, .inl rfl, by simp at hm; right; right; omega⟩
          left
          refine ⟨rfl, ds', _, pieces_aux P ⟨s1.1.fullBodyBuff, s1.1.fullCap, [], none⟩ hp', ?_, Nat.le_refl _⟩
          rw [hR]; simp [hd]
        · obtain ⟨d', err, s'', R', m', g1, g2, g3, g4, g5, g6⟩ := copyOut_rem P n
            (s := ({ s1.1 with stashPending := d, stashError := none }, s1.2)) (R := R) (e := e)
            (m := R.length + ds'.length)
            (.inl ⟨rfl, ds', _, pieces_aux P ⟨s1.1.fullBodyBuff, s1.1.fullCap, d, none⟩ hp', by simpa using hR,
              Nat.le_refl _⟩) (.inl hd)
          refine ⟨d', err, s'', R', m', g1, g2, g3, by simp at hm; omega, g5, ?_⟩
          simp at hm
          rcases g6 with g6 | g6 | g6
          · exact .inl g6
          · exact .inr (.inl g6)
          · right; right; omega
    · rw [hc.2] at h1; simp at h1
  · rw [if_neg hc]
    apply copyOut_rem P n h
    by_cases h0 : s.1.stashPending = []
    · right; intro h1; exact hc ⟨by simp [h0], h1⟩
    · exact .inl h0

theorem copyEnd (P : ChunkedParser σ) {n : Nat} {s s' : BC σ} {d : Bytes} {err : Option GoErr} {e : GoErr}
    (h : read P n s = ((d, err), s')) (he : err = some e) : s'.1.stashPending = [] ∧ s'.1.stashError = some e := by
  rw [read_eq] at h
  have key : ∀ t : BC σ, copyOut n t = ((d, err), s') → s'.1.stashPending = [] ∧ s'.1.stashError = some e := by
    intro t ht
    simp only [copyOut, Prod.mk.injEq] at ht
    obtain ⟨⟨_, h2⟩, rfl⟩ := ht
    rw [he] at h2
    by_cases hd : (t.1.stashPending.drop n).length = 0
    · rw [if_pos hd] at h2
      exact ⟨List.eq_nil_of_length_eq_zero hd, h2⟩
    · rw [if_neg hd] at h2; simp at h2
  split at h
  · exact key _ h
  · exact key _ h

theorem reads_end (P : ChunkedParser σ) (ns : List Nat) : ∀ {s : BC σ} {e : GoErr}, ns ≠ [] →
    s.1.stashPending = [] ∧ s.1.stashError = some e → (reads P ns s).1.getLast?.map (·.2) = some (some e) := by
  induction ns with
  | nil => intro s e h; exact absurd rfl h
  | cons n ns ih =>
    intro s e _ hs
    have hr : read P n s = (([], some e), s) := by
      rw [read_eq, if_neg (by simp [hs.2])]
      obtain ⟨b, c⟩ := s
      simp only at hs
      simp [copyOut, hs.1, hs.2]
      cases b; simp_all
    have hcons : reads P (n :: ns) s = (([], some e) :: (reads P ns s).1, (reads P ns s).2) := by
      simp [reads, hr]
    rw [hcons]
    cases hns : (reads P ns s).1 with
    | nil => simp
    | cons a l =>
      cases ns with
      | nil => simp [reads] at hns
      | cons n2 ns2 =>
        have := ih (s := s) (e := e) (by simp) hs
        rw [hns] at this
        simpa [List.getLast?_cons_cons] using this

theorem reads_rem (P : ChunkedParser σ) (ns : List Nat) : ∀ {s : BC σ} {R : Bytes} {e : GoErr} {m : Nat}, Rem P s R e m →
    (∃ rest, R = ((reads P ns s).1.map (·.1)).flatten ++ rest ∧
      ∀ err ∈ (reads P ns s).1.map (·.2), err = none ∨ (err = some e ∧ rest = [])) ∧
    ((∀ n ∈ ns, 0 < n) → m < ns.length → (reads P ns s).1.getLast?.map (·.2) = some (some e)) := by
  induction ns with
  | nil => intro s R e m h; simp [reads]
  | cons n ns ih =>
    intro s R e m h
    obtain ⟨d, err, s', R', m', g1, g2, g3, g4, g5, g6⟩ := read_rem P n h
    obtain ⟨⟨rest, i1, i2⟩, i3⟩ := ih g3
    have hcons : reads P (n :: ns) s = ((d, err) :: (reads P ns s').1, (reads P ns s').2) := by
      simp [reads, g1]
    rw [hcons]
    refine ⟨⟨rest, ?_, ?_⟩, ?_⟩
    · simp only [List.map_cons, List.flatten_cons, List.append_assoc]
      rw [← i1]; exact g2
    · intro x hx
      simp only [List.map_cons, List.mem_cons] at hx
      rcases hx with rfl | hx
      · rcases g5 with g5 | ⟨g5, g7⟩
        · exact .inl g5
        · right
          rw [g7] at i1
          exact ⟨g5, (List.append_eq_nil_iff.1 i1.symm).2⟩
      · exact i2 x hx
    · intro hn hlen
      have hn0 := hn n (by simp)
      simp at hlen
      cases ns with
      | nil =>
        simp [reads]
        rcases g6 with g6 | g6 | g6
        · omega
        · exact g6
        · simp at hlen; omega
      | cons n2 ns2 =>
        have hlast : ∀ (l : List (Bytes × Option GoErr)), l ≠ [] → ((d, err) :: l).getLast? = l.getLast? := by
          intro l hl
          cases l with
          | nil => exact absurd rfl hl
          | cons a b => simp [List.getLast?_cons_cons]
        have hne : (reads P (n2 :: ns2) s').1 ≠ [] := by simp [reads]
        rw [hlast _ hne]
        rcases g6 with g6 | g6 | g6
        · omega
        · -- the error has been reported already: it is reported again
          rcases g5 with g5 | ⟨_, hR'⟩
          · rw [g6] at g5; simp at g5
          · exact reads_end P (n2 :: ns2) (by simp) (copyEnd P g1 g6)
        · exact i3 (fun x hx => hn x (by simp [hx])) (by simp at hlen ⊢; omega)

end Indigo.Body
