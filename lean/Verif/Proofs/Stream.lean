/-
Streaming of attachments.
-/
import Verif.Proofs.Serializer

namespace Indigo.Serializer
open Indigo.Spec

theorem write_noError {c : Client} (h : NoWriteError c) (b : Bytes) :
    (c.write b).1 = none ∧ NoWriteError (c.write b).2 := by
  unfold Client.write
  cases hw : c.wscript with
  | nil => simp [NoWriteError]
  | cons e es =>
    have h1 := h e (by rw [hw]; simp)
    subst h1
    refine ⟨by simp, ?_⟩
    intro e he
    exact h e (by rw [hw]; exact List.mem_cons_of_mem _ he)

/-! ### Memory -/

theorem copyAt_mid {a x b data : Bytes} (h : x.length = data.length) :
    copyAt (a ++ (x ++ b)) a.length data = a ++ (data ++ b) := by
  unfold copyAt
  rw [List.take_left, List.take_of_length_le (by simp [h])]
  congr 2
  rw [← List.append_assoc, List.drop_append_of_le_length (by simp [h]), List.drop_of_length_le (by simp [h])]
  simp

/-- Copying into memory which is long enough. -/
theorem copyAt_eq {mem data : Bytes} {off : Nat} (h : off + data.length ≤ mem.length) :
    copyAt mem off data = mem.take off ++ (data ++ mem.drop (off + data.length)) := by
  unfold copyAt
  rw [List.take_of_length_le (i := mem.length - off) (l := data) (by omega)]

theorem copyAt_length {mem data : Bytes} {off : Nat} (h : off + data.length ≤ mem.length) :
    (copyAt mem off data).length = mem.length := by
  rw [copyAt_eq h]; simp; omega

theorem slice_copy {mem data : Bytes} (h : data.length ≤ mem.length) :
    slice (copyAt mem 0 data) 0 data.length = data := by
  rw [copyAt_eq (by omega)]; simp [slice]

/-- One chunk of a chunked coding. -/
def frame (d : Bytes) : Bytes := hexBytes d.length ++ [13, 10] ++ d ++ [13, 10]

theorem split3 {l : Bytes} (n : Nat) (h : n ≤ l.length) : ∃ a b, l = a ++ b ∧ a.length = n :=
  ⟨l.take n, l.drop n, by simp, by simp; omega⟩

theorem chunkFrame_eq {mem d : Bytes} (hm : d.length + 12 ≤ mem.length) (hlen : (hexBytes d.length).length ≤ 8) :
    ∃ mem', chunkFrame (copyAt mem 10 d) d.length = some (mem', frame d) ∧ mem'.length = mem.length := by
  obtain ⟨p, r, e1, hp⟩ := split3 (l := mem) 10 (by omega)
  have hlr : mem.length = 10 + r.length := by rw [e1]; simp [hp]
  obtain ⟨x, r, e2, hx⟩ := split3 (l := r) d.length (by omega)
  subst e2
  simp at hlr
  obtain ⟨y, q, e3, hy⟩ := split3 (l := r) 2 (by omega)
  subst e3 e1
  have c0 : copyAt (p ++ (x ++ (y ++ q))) 10 d = p ++ (d ++ (y ++ q)) := by
    have := copyAt_mid (a := p) (x := x) (b := y ++ q) (data := d) hx
    rwa [hp] at this
  rw [c0]
  generalize hh : hexBytes d.length = hex at hlen ⊢
  -- the digits at the start
  obtain ⟨z, p', e4, hz⟩ := split3 (l := p) hex.length (by omega)
  subst e4
  simp at hp
  have c1 : copyAt (z ++ p' ++ (d ++ (y ++ q))) 0 hex = hex ++ (p' ++ (d ++ (y ++ q))) := by
    have := copyAt_mid (a := []) (x := z) (b := p' ++ (d ++ (y ++ q))) (data := hex) hz
    simpa using this
  have s1 : slice (hex ++ (p' ++ (d ++ (y ++ q)))) 0 hex.length = hex := by simp [slice]
  -- the first ten bytes now
  obtain ⟨a, r1, e5, ha⟩ := split3 (l := hex ++ p') (8 - hex.length) (by simp; omega)
  have hl5 : hex.length + p'.length = a.length + r1.length := by
    have := congrArg List.length e5; simpa using this
  obtain ⟨b, w, e6, hb⟩ := split3 (l := r1) hex.length (by omega)
  subst e6
  simp at hl5
  have c2 : copyAt (hex ++ (p' ++ (d ++ (y ++ q)))) (8 - hex.length) hex = a ++ (hex ++ (w ++ (d ++ (y ++ q)))) := by
    have := copyAt_mid (a := a) (x := b) (b := w ++ (d ++ (y ++ q))) (data := hex) hb
    rw [ha] at this
    rw [← this, ← List.append_assoc hex, e5]
    simp
  have c3 : copyAt (a ++ (hex ++ (w ++ (d ++ (y ++ q))))) 8 crlf = (a ++ hex) ++ (crlf ++ (d ++ (y ++ q))) := by
    have := copyAt_mid (a := a ++ hex) (x := w) (b := d ++ (y ++ q)) (data := crlf) (by simp; omega)
    rw [show (a ++ hex).length = 8 by simp; omega] at this
    rw [← this]; simp
  have c4 : copyAt ((a ++ hex) ++ (crlf ++ (d ++ (y ++ q)))) (10 + d.length) crlf =
      ((a ++ hex) ++ crlf ++ d) ++ (crlf ++ q) := by
    have := copyAt_mid (a := (a ++ hex) ++ crlf ++ d) (x := y) (b := q) (data := crlf) (by simp [hy])
    rw [show ((a ++ hex) ++ crlf ++ d).length = 10 + d.length by simp; omega] at this
    rw [← this]; simp
  refine ⟨((a ++ hex) ++ crlf ++ d) ++ (crlf ++ q), ?_, ?_⟩
  · unfold chunkFrame
    simp only [hh, c1, s1, c2, c3, c4]
    rw [if_neg (by omega)]
    have : slice (((a ++ hex) ++ crlf ++ d) ++ (crlf ++ q)) (8 - hex.length) (10 + d.length + 2) = frame d := by
      unfold slice frame
      rw [← ha, hh]
      have e : (a ++ hex) ++ crlf ++ d ++ (crlf ++ q) = a ++ ((hex ++ crlf ++ d ++ crlf) ++ q) := by simp
      rw [e, List.drop_left, show 10 + d.length + 2 - a.length = (hex ++ crlf ++ d ++ crlf).length by simp; omega,
        List.take_left]
    rw [this]
  · simp; omega

/-! ### Hexadecimal sizes -/

theorem chunkDigit_digit : ∀ d, d < 16 → chunkDigit? (digitByte d) = some d := by decide

theorem chunkSize_hex (n : Nat) : chunkSize (hexBytes n) = some n := by
  have key : (hexBytes n).foldl (fun acc b => acc.bind fun n => (chunkDigit? b).map fun v => 16 * n + v) (some 0) = some n := by
    induction n using Nat.strongRecOn with
    | _ n ih =>
      by_cases h : n < 16
      · rw [hexBytes_lt h]
        simp [chunkDigit_digit n h]
      · rw [hexBytes_ge (by omega), List.foldl_append, ih (n / 16) (Nat.div_lt_self (by omega) (by omega))]
        simp [chunkDigit_digit (n % 16) (by omega)]
        omega
  cases hb : hexBytes n with
  | nil => exact absurd hb (hexBytes_ne n)
  | cons x xs => rw [hb] at key; exact key

theorem frames_coding (chunks : List Bytes) (hne : ∀ x ∈ chunks, x ≠ []) :
    ChunkedCoding chunks (chunks.flatMap frame ++ b!"0\r\n\r\n") := by
  induction chunks with
  | nil => exact ChunkedCoding.last (ds := b!"0") (by decide)
  | cons c cs ih =>
    have := ChunkedCoding.chunk (chunkSize_hex c.length) (hne c (by simp)) (ih (fun x hx => hne x (List.mem_cons_of_mem _ hx)))
    simpa [frame] using this

/-! ### Readers -/

theorem read_spec {n : Nat} (r : Reader) : ∀ d e r', Reader.read n r = ((d, e), r') →
    d.length ≤ n ∧ (e = none → readerData r = d ++ readerData r' ∧ readerEnd r = readerEnd r' ∧
      (0 < n → readerSize r' < readerSize r) ∧ (EndsAlone r → EndsAlone r')) ∧
    (∀ x, e = some x → readerData r = d ∧ readerEnd r = x ∧ (EndsAlone r → d = [])) := by
  intro d e r' h
  cases r with
  | nil =>
    simp [Reader.read] at h
    obtain ⟨⟨rfl, rfl⟩, rfl⟩ := h
    simp [readerData, readerEnd]
  | cons ev rs =>
    obtain ⟨d0, e0⟩ := ev
    simp only [Reader.read] at h
    split at h
    · rename_i hle
      simp only [Prod.mk.injEq] at h
      obtain ⟨⟨rfl, rfl⟩, rfl⟩ := h
      refine ⟨hle, ?_, ?_⟩
      · intro he; subst he
        simp [readerData, readerEnd, readerSize, EndsAlone]
      · intro x he; subst he
        simp [readerData, readerEnd, EndsAlone]
    · rename_i hgt
      simp only [Prod.mk.injEq] at h
      obtain ⟨⟨rfl, rfl⟩, rfl⟩ := h
      refine ⟨by simp; omega, ?_, by simp⟩
      intro _
      refine ⟨?_, ?_, ?_, ?_⟩
      · cases e0 <;> simp [readerData, ← List.append_assoc]
      · cases e0 <;> rfl
      · intro hn; simp [readerSize]; omega
      · intro ha
        cases e0 with
        | none => exact ha
        | some x =>
          simp [EndsAlone] at ha
          subst ha; simp at hgt

/-- What a complete chunked body consists of, write by write. -/
def fullChunked (chunks : List Bytes) (e : GoErr) : List Bytes :=
  chunks.map frame ++ (if e = .eof then [b!"0\r\n\r\n"] else [])

/-- How streaming ends if no write fails. -/
def endOut (e : GoErr) : WOut := if e = .eof then .done none else errClose

theorem chunking (b : Bytes) : ∃ chunks : List Bytes, chunks.flatten = b ∧ ∀ x ∈ chunks, x ≠ [] := by
  by_cases h : b = []
  · exact ⟨[], by simp [h], by simp⟩
  · exact ⟨[b], by simp, by simp [h]⟩

structure Streamed (c : Client) (full : List Bytes) (e : GoErr) (mem : Bytes) (res : WOut × Bytes × Client) : Prop where
  panic : res.1 ≠ .panic
  written : ∃ ws, res.2.2.written = c.written ++ ws ∧ ws <+: full ∧ (res.1 = .done none → ws = full ∧ e = .eof) ∧
    (NoWriteError c → ws = full)
  out : NoWriteError c → res.1 = endOut e ∧ NoWriteError res.2.2
  mem : res.2.1.length = mem.length
  input : res.2.2.pending = c.pending ∧ res.2.2.conn = c.conn

theorem chunkEnd_streamed (c : Client) (x : GoErr) (mem mem' : Bytes) (hm : mem'.length = mem.length) :
    ∃ o c', chunkEnd c (some x) = some (o, c') ∧ Streamed c (fullChunked [] x) x mem (o, mem', c') := by
  by_cases hx : x = .eof
  · subst hx
    refine ⟨_, _, rfl, ?_, ⟨[b!"0\r\n\r\n"], ?_, ?_, ?_, ?_⟩, ?_, hm, ?_⟩
    · simp
    · simp [Client.write]
    · simp [fullChunked]
    · simp [fullChunked]
    · simp [fullChunked]
    · intro h; exact ⟨by simp [endOut, write_noError h], (write_noError h _).2⟩
    · simp [Client.write]
  · have e : chunkEnd c (some x) = some (errClose, c) := by cases x <;> first | rfl | exact absurd rfl hx
    refine ⟨_, _, e, ?_, ⟨[], ?_, ?_, ?_, ?_⟩, ?_, hm, ?_⟩
    · simp [errClose]
    · simp
    · simp
    · simp [errClose]
    · simp [fullChunked, hx]
    · intro h; exact ⟨by simp [endOut, hx], h⟩
    · simp

/-- A successful write in front. -/
theorem Streamed.cons {c : Client} {b : Bytes} {full : List Bytes} {e : GoErr} {mem mem' : Bytes}
    {res : WOut × Bytes × Client} (_hw : (c.write b).1 = none) (hm : mem'.length = mem.length)
    (h : Streamed (c.write b).2 full e mem' res) : Streamed c (b :: full) e mem res := by
  obtain ⟨h1, ⟨ws, h2, h3, h4, h5⟩, h6, h7, h8⟩ := h
  refine ⟨h1, ⟨b :: ws, ?_, ?_, ?_, ?_⟩, ?_, by omega, ?_⟩
  · rw [h2]; simp [Client.write]
  · simpa using h3
  · intro h; have := h4 h; exact ⟨by rw [this.1], this.2⟩
  · intro h; rw [h5 (write_noError h b).2]
  · intro h; exact h6 (write_noError h b).2
  · simpa [Client.write] using h8

theorem Streamed.failed {c : Client} {b : Bytes} {full : List Bytes} {e : GoErr} {mem mem' : Bytes}
    {x : GoErr} (hw : (c.write b).1 = some x) (hm : mem'.length = mem.length) :
    Streamed c (b :: full) e mem (errClose, mem', (c.write b).2) := by
  refine ⟨by simp [errClose], ⟨[b], by simp [Client.write], by simp, by simp [errClose], ?_⟩, ?_, hm, by simp [Client.write]⟩
  · intro h; have := (write_noError h b).1; rw [hw] at this; cases this
  · intro h; have := (write_noError h b).1; rw [hw] at this; cases this

theorem writeChunkedBody_spec : ∀ (fuel : Nat) (mem : Bytes) (r : Reader) (c : Client),
    readerSize r ≤ fuel → 16 ≤ mem.length → mem.length < 16 ^ 8 →
    ∃ chunks : List Bytes, chunks.flatten = readerData r ∧ (∀ x ∈ chunks, x ≠ []) ∧
      Streamed c (fullChunked chunks (readerEnd r)) (readerEnd r) mem (writeChunkedBody fuel mem r c) := by
  intro fuel
  induction fuel with
  | zero => intro mem r c h; unfold readerSize at h; omega
  | succ fuel ih =>
    intro mem r c hf hm hM
    obtain ⟨⟨d, err⟩, r', hr⟩ : ∃ de r', Reader.read (mem.length - 2 - 10) r = (de, r') := ⟨_, _, rfl⟩
    obtain ⟨hd, hnone, hsome⟩ := read_spec r d err r' hr
    simp only [writeChunkedBody, hr]
    have hml : (copyAt mem 10 d).length = mem.length := copyAt_length (by omega)
    by_cases hpos : d.length > 0
    · rw [if_pos hpos]
      obtain ⟨mem', hfr, hl'⟩ := chunkFrame_eq (mem := mem) (d := d) (by omega)
        (hexBytes_length 7 _ (by omega))
      rw [hfr]
      simp only
      have hdne : d ≠ [] := List.length_pos_iff.1 hpos
      match hw : c.write (frame d) with
      | (some x, c1) =>
        obtain ⟨h1, h2⟩ : (c.write (frame d)).1 = some x ∧ (c.write (frame d)).2 = c1 := by rw [hw]; simp
        simp only
        cases err with
        | none =>
          obtain ⟨cs, hcs, hne⟩ := chunking (readerData r')
          refine ⟨d :: cs, by simp [hcs, (hnone rfl).1], by simpa [hdne] using hne, ?_⟩
          rw [← h2]; exact Streamed.failed h1 hl'
        | some y =>
          refine ⟨[d], by simp [(hsome y rfl).1], by simp [hdne], ?_⟩
          rw [← h2]; exact Streamed.failed h1 hl'
      | (none, c1) =>
        obtain ⟨h1, h2⟩ : (c.write (frame d)).1 = none ∧ (c.write (frame d)).2 = c1 := by rw [hw]; simp
        simp only
        cases err with
        | none =>
          obtain ⟨e1, e2, e3, _⟩ := hnone rfl
          have := e3 (by omega)
          obtain ⟨cs, hcs, hne, hst⟩ := ih mem' r' c1 (by omega) (by omega) (by omega)
          refine ⟨d :: cs, by simp [hcs, e1], by simpa [hdne] using hne, ?_⟩
          simp only [chunkEnd]
          rw [e2]
          rw [← h2] at hst ⊢
          exact Streamed.cons h1 hl' hst
        | some y =>
          obtain ⟨e1, e2, _⟩ := hsome y rfl
          refine ⟨[d], by simp [e1], by simp [hdne], ?_⟩
          obtain ⟨o, c', he, hst⟩ := chunkEnd_streamed c1 y mem mem' hl'
          rw [he, e2]
          simp only
          rw [← h2] at hst
          exact Streamed.cons h1 rfl hst
    · rw [if_neg hpos]
      have hd0 : d = [] := by cases d with | nil => rfl | cons => simp at hpos
      subst hd0
      cases err with
      | none =>
        obtain ⟨e1, e2, e3, _⟩ := hnone rfl
        have := e3 (by omega)
        obtain ⟨cs, hcs, hne, hst⟩ := ih (copyAt mem 10 []) r' c (by omega) (by omega) (by omega)
        refine ⟨cs, by simp [hcs, e1], hne, ?_⟩
        simp only [chunkEnd]
        rw [e2]
        exact ⟨hst.1, hst.2, hst.3, by rw [hst.4, hml], hst.5⟩
      | some y =>
        obtain ⟨e1, e2, _⟩ := hsome y rfl
        refine ⟨[], by simp [e1], by simp, ?_⟩
        obtain ⟨o, c', he, hst⟩ := chunkEnd_streamed c y mem (copyAt mem 10 []) hml
        rw [he, e2]
        exact hst

theorem writePlainBody_spec : ∀ (fuel : Nat) (mem : Bytes) (r : Reader) (c : Client),
    readerSize r ≤ fuel → 1 ≤ mem.length → EndsAlone r →
    ∃ parts : List Bytes, parts.flatten = readerData r ∧
      Streamed c parts (readerEnd r) mem (writePlainBody fuel mem r c) := by
  intro fuel
  induction fuel with
  | zero => intro mem r c h; unfold readerSize at h; omega
  | succ fuel ih =>
    intro mem r c hf hm ha
    obtain ⟨⟨d, err⟩, r', hr⟩ : ∃ de r', Reader.read mem.length r = (de, r') := ⟨_, _, rfl⟩
    obtain ⟨hd, hnone, hsome⟩ := read_spec r d err r' hr
    have hml : (copyAt mem 0 d).length = mem.length := copyAt_length (by omega)
    cases err with
    | none =>
      obtain ⟨e1, e2, e3, e4⟩ := hnone rfl
      simp only [writePlainBody, hr, slice_copy hd]
      match hw : c.write d with
      | (some x, c1) =>
        obtain ⟨h1, h2⟩ : (c.write d).1 = some x ∧ (c.write d).2 = c1 := by rw [hw]; simp
        refine ⟨[d, readerData r'], by simp [e1], ?_⟩
        simp only
        rw [← h2]; exact Streamed.failed h1 hml
      | (none, c1) =>
        obtain ⟨h1, h2⟩ : (c.write d).1 = none ∧ (c.write d).2 = c1 := by rw [hw]; simp
        have := e3 (by omega)
        obtain ⟨ps, hps, hst⟩ := ih (copyAt mem 0 d) r' c1 (by omega) (by omega) (e4 ha)
        refine ⟨d :: ps, by simp [hps, e1], ?_⟩
        simp only
        rw [e2]
        rw [← h2] at hst ⊢
        exact Streamed.cons h1 hml hst
    | some y =>
      obtain ⟨e1, e2, e3⟩ := hsome y rfl
      have := e3 ha
      subst this
      refine ⟨[], by simp [e1], ?_⟩
      rw [e2]
      by_cases hy : y = .eof
      · subst hy
        have e : writePlainBody (fuel + 1) mem r c = (.done none, copyAt mem 0 [], c) := by
          simp only [writePlainBody, hr]
        rw [e]
        exact ⟨by simp, ⟨[], by simp, by simp, by simp, by simp⟩, fun h => ⟨rfl, h⟩, hml, by simp⟩
      · have e : writePlainBody (fuel + 1) mem r c = (errClose, copyAt mem 0 [], c) := by
          simp only [writePlainBody, hr]
        rw [e]
        exact ⟨by simp [errClose], ⟨[], by simp, by simp, by simp [errClose], by simp⟩,
          fun h => ⟨by simp [endOut, hy], h⟩, hml, by simp⟩

end Indigo.Serializer
