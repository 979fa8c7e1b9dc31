/-
Writing a response on a connection on which writes may fail.
-/
import Verif.Proofs.Deaf

namespace Indigo.Serializer
open Indigo.Spec

/-- What has been written by `c'`, which comes after `c` and ended with `out`: a failed write was the last one, and the error was reported. -/
def Careful (c : Client) (out : WOut) (c' : Client) : Prop :=
  ∃ fr, c'.written = c.written ++ fr ∧ c'.wscript = c.wscript.drop fr.length ∧
    ∀ (k : Nat) (e : GoErr), k < fr.length → c.wscript[k]? = some (some e) → k + 1 = fr.length ∧ ∃ e', out = .done (some e')

theorem Careful.refl (c : Client) (out : WOut) : Careful c out c := ⟨[], by simp, by simp, by simp⟩

/-- A write, successful or not, which is the last one. -/
theorem Careful.last (c : Client) (b : Bytes) (out : WOut) (h : ∀ e, (c.write b).1 = some e → ∃ e', out = .done (some e')) :
    Careful c out (c.write b).2 := by
  refine ⟨[b], rfl, by simp [Client.write], fun k e hk he => ?_⟩
  have : k = 0 := by simpa using hk
  subst this
  refine ⟨rfl, h e ?_⟩
  simp [Client.write, List.head?_eq_getElem?, he]

/-- A successful write, and what comes then. -/
theorem Careful.cons {c : Client} {b : Bytes} {out : WOut} {c' : Client} (h : (c.write b).1 = none) (hc : Careful (c.write b).2 out c') : Careful c out c' := by
  obtain ⟨fr, h1, h2, h3⟩ := hc
  refine ⟨b :: fr, by rw [h1]; simp [Client.write], by rw [h2]; simp [Client.write], fun k e hk he => ?_⟩
  cases k with
  | zero =>
    simp [Client.write, List.head?_eq_getElem?, he] at h
  | succ k =>
    have := h3 k e (by simpa using hk) (by simpa [Client.write] using he)
    exact ⟨by simp [this.1], this.2⟩

theorem plain_careful : ∀ (n : Nat) (mem : Bytes) (r : Reader) (c : Client),
    Careful c (writePlainBody n mem r c).1 (writePlainBody n mem r c).2.2 := by
  intro n
  induction n with
  | zero => intro mem r c; exact .refl _ _
  | succ n ih =>
    intro mem r c
    simp only [writePlainBody]
    rcases Reader.read mem.length r with ⟨⟨d, e⟩, r'⟩
    cases e with
    | none =>
      dsimp only
      have hl := Careful.last c (slice (copyAt mem 0 d) 0 d.length) errClose (fun _ _ => ⟨_, rfl⟩)
      have hc : ∀ out c', (c.write (slice (copyAt mem 0 d) 0 d.length)).1 = none → Careful (c.write (slice (copyAt mem 0 d) 0 d.length)).2 out c' → Careful c out c' :=
        fun _ _ => Careful.cons
      rcases hw : c.write (slice (copyAt mem 0 d) 0 d.length) with ⟨e, x'⟩
      rw [hw] at hl hc
      cases e with
      | none => exact hc _ _ rfl (ih _ _ _)
      | some e => exact hl
    | some e => cases e <;> exact .refl _ _

theorem chunked_careful : ∀ (n : Nat) (mem : Bytes) (r : Reader) (c : Client),
    Careful c (writeChunkedBody n mem r c).1 (writeChunkedBody n mem r c).2.2 := by
  intro n
  induction n with
  | zero => intro mem r c; exact .refl _ _
  | succ n ih =>
    intro mem r c
    simp only [writeChunkedBody]
    rcases Reader.read (mem.length - 2 - 10) r with ⟨⟨d, e⟩, r'⟩
    dsimp only
    have key : ∀ (m : Bytes) (x : Client),
        Careful x (match chunkEnd x e with
          | some (o, c) => (o, m, c)
          | none => writeChunkedBody n m r' x).1
         (match chunkEnd x e with
          | some (o, c) => (o, m, c)
          | none => writeChunkedBody n m r' x).2.2 := by
      intro m x
      cases e with
      | none => exact ih _ _ _
      | some e =>
        cases e <;> first | exact .refl _ _ | skip
        exact Careful.last x b!"0\r\n\r\n" (.done (x.write b!"0\r\n\r\n").1) (fun e he => ⟨e, by rw [he]⟩)
    split
    · cases chunkFrame (copyAt mem 10 d) d.length with
      | none => exact .refl _ _
      | some mf =>
        obtain ⟨m, frame⟩ := mf
        dsimp only
        have hl := Careful.last c frame errClose (fun _ _ => ⟨_, rfl⟩)
        have hc : ∀ out c', (c.write frame).1 = none → Careful (c.write frame).2 out c' → Careful c out c' := fun _ _ => Careful.cons
        rcases hw : c.write frame with ⟨e', x'⟩
        rw [hw] at hl hc
        cases e' with
        | none => exact hc _ _ rfl (key _ _)
        | some e' => exact hl
    · exact key _ _

theorem write_careful (F : Fold) (d : Serializer) (p : Proto) (req : Request) (f : Fields) (c : Client) :
    Careful c (write F d p req f c).out (write F d p req f c).client := by
  cases ha : f.Attachment.content with
  | none =>
    unfold write
    simp only [ha]
    refine Careful.last c _ _ (fun e he => ?_)
    split
    · exact ⟨_, rfl⟩
    · exact ⟨e, by rw [← he]⟩
  | some r =>
    rw [write_attachment F d p req f _ r ha]
    have hl := Careful.last c (attachText F d p f) errClose (fun _ _ => ⟨_, rfl⟩)
    have hc : ∀ out c', (c.write (attachText F d p f)).1 = none → Careful (c.write (attachText F d p f)).2 out c' → Careful c out c' := fun _ _ => Careful.cons
    rcases hw : c.write (attachText F d p f) with ⟨e, x'⟩
    simp only [hw] at hl hc ⊢
    cases e with
    | some e => exact hl
    | none =>
      dsimp only
      split
      · exact hc _ _ rfl (.refl _ _)
      · refine hc _ _ rfl ?_
        unfold stream
        dsimp only
        split
        · exact plain_careful _ _ _ _
        · exact chunked_careful _ _ _ _

/-- `y` is what would have come if no write had failed, instead of `x`. -/
structure Better (w0 : List Bytes) (wr : List Bytes) (x y : WOut × Bytes × Client) : Prop where
  written : ∃ fr fr0, x.2.2.written = w0 ++ fr ∧ y.2.2.written = wr ++ fr0 ∧ fr <+: fr0
  same : (∀ e, x.1 ≠ .done (some e)) → y.1 = x.1 ∧ y.2.1 = x.2.1 ∧ ∃ fr, x.2.2.written = w0 ++ fr ∧ y.2.2.written = wr ++ fr

theorem Better.refl (w0 wr) (o : WOut) (m : Bytes) {a b : Client} (ha : a.written = w0) (hb : b.written = wr) : Better w0 wr (o, m, a) (o, m, b) :=
  ⟨⟨[], [], by simp [ha], by simp [hb], List.prefix_refl _⟩, fun _ => ⟨rfl, rfl, [], by simp [ha], by simp [hb]⟩⟩

theorem Better.cons {w0 wr} {b : Bytes} {x y} (h : Better (w0 ++ [b]) (wr ++ [b]) x y) : Better w0 wr x y := by
  obtain ⟨⟨fr, fr0, h1, h2, h3⟩, h4⟩ := h
  refine ⟨⟨b :: fr, b :: fr0, by simp [h1], by simp [h2], by simpa using h3⟩, fun hne => ?_⟩
  obtain ⟨a1, a2, fr, a3, a4⟩ := h4 hne
  exact ⟨a1, a2, b :: fr, by simp [a3], by simp [a4]⟩

/-- A failed write. -/
theorem Better.failed {w0 wr} {b : Bytes} {m : Bytes} {a : Client} {y : WOut × Bytes × Client} {e : GoErr} (ha : a.written = w0 ++ [b]) (hy : ∃ more, y.2.2.written = wr ++ [b] ++ more) :
    Better w0 wr (.done (some e), m, a) y := by
  obtain ⟨more, hy⟩ := hy
  exact ⟨⟨[b], b :: more, ha, by simpa using hy, by simp⟩, fun h => absurd rfl (h e)⟩

theorem plain_better : ∀ (n : Nat) (mem : Bytes) (r : Reader) (c : Client) (wr : List Bytes),
    Better c.written wr (writePlainBody n mem r c) (writePlainBody n mem r (c.as [] wr)) := by
  intro n
  induction n with
  | zero => intro mem r c wr; exact .refl _ _ _ _ rfl rfl
  | succ n ih =>
    intro mem r c wr
    simp only [writePlainBody]
    rcases Reader.read mem.length r with ⟨⟨d, e⟩, r'⟩
    cases e with
    | none =>
      dsimp only
      rw [show (c.as [] wr).write (slice (copyAt mem 0 d) 0 d.length) = (none, (c.as [] (wr ++ [slice (copyAt mem 0 d) 0 d.length]))) from rfl]
      have hw2 : (c.write (slice (copyAt mem 0 d) 0 d.length)).2.written = c.written ++ [slice (copyAt mem 0 d) 0 d.length] := rfl
      have hw3 : (c.write (slice (copyAt mem 0 d) 0 d.length)).2.as [] (wr ++ [slice (copyAt mem 0 d) 0 d.length]) = c.as [] (wr ++ [slice (copyAt mem 0 d) 0 d.length]) := rfl
      rcases hw : c.write (slice (copyAt mem 0 d) 0 d.length) with ⟨e, x'⟩
      rw [hw] at hw2 hw3
      dsimp only at hw2 hw3 ⊢
      cases e with
      | none =>
        refine .cons (b := slice (copyAt mem 0 d) 0 d.length) ?_
        rw [← hw2, ← hw3]
        exact ih _ _ _ _
      | some e =>
        refine .failed hw2 ?_
        obtain ⟨fr, hfr, -⟩ := plain_careful n (copyAt mem 0 d) r' (c.as [] (wr ++ [slice (copyAt mem 0 d) 0 d.length]))
        exact ⟨fr, hfr⟩
    | some e => cases e <;> exact .refl _ _ _ _ rfl rfl

theorem chunked_better : ∀ (n : Nat) (mem : Bytes) (r : Reader) (c : Client) (wr : List Bytes),
    Better c.written wr (writeChunkedBody n mem r c) (writeChunkedBody n mem r (c.as [] wr)) := by
  intro n
  induction n with
  | zero => intro mem r c wr; exact .refl _ _ _ _ rfl rfl
  | succ n ih =>
    intro mem r c wr
    simp only [writeChunkedBody]
    rcases Reader.read (mem.length - 2 - 10) r with ⟨⟨d, e⟩, r'⟩
    dsimp only
    have key : ∀ (m : Bytes) (x : Client) (wr : List Bytes),
        Better x.written wr (match chunkEnd x e with
          | some (o, c) => (o, m, c)
          | none => writeChunkedBody n m r' x)
         (match chunkEnd (x.as [] wr) e with
          | some (o, c) => (o, m, c)
          | none => writeChunkedBody n m r' (x.as [] wr)) := by
      intro m x wr
      cases e with
      | none => exact ih _ _ _ _
      | some e =>
        cases e <;> first | exact .refl _ _ _ _ rfl rfl | skip
        dsimp only [chunkEnd]
        cases hx : (x.write b!"0\r\n\r\n").1 with
        | none => exact .cons (b := b!"0\r\n\r\n") (.refl _ _ _ _ rfl rfl)
        | some e => exact .failed rfl ⟨[], by simp [Client.write]⟩
    have mono2 : ∀ (m : Bytes) (x : Client), ∃ fr, (match chunkEnd x e with
          | some (o, c) => (o, m, c)
          | none => writeChunkedBody n m r' x).2.2.written = x.written ++ fr := by
      intro m x
      cases e with
      | none => obtain ⟨fr, h, -⟩ := chunked_careful n m r' x; exact ⟨fr, h⟩
      | some e => cases e <;> first | exact ⟨[b!"0\r\n\r\n"], rfl⟩ | exact ⟨[], by simp [chunkEnd]⟩
    split
    · cases chunkFrame (copyAt mem 10 d) d.length with
      | none => exact .refl _ _ _ _ rfl rfl
      | some mf =>
        obtain ⟨m, frame⟩ := mf
        dsimp only
        rw [show (c.as [] wr).write frame = (none, (c.as [] (wr ++ [frame]))) from rfl]
        have hw2 : (c.write frame).2.written = c.written ++ [frame] := rfl
        have hw3 : (c.write frame).2.as [] (wr ++ [frame]) = c.as [] (wr ++ [frame]) := rfl
        rcases hw : c.write frame with ⟨e', x'⟩
        rw [hw] at hw2 hw3
        dsimp only at hw2 hw3 ⊢
        cases e' with
        | none =>
          refine .cons (b := frame) ?_
          rw [← hw2, ← hw3]
          exact key _ _ _
        | some e' =>
          refine .failed hw2 ?_
          obtain ⟨fr, hfr⟩ := mono2 m (c.as [] (wr ++ [frame]))
          exact ⟨fr, hfr⟩
    · exact key _ _ _

/-- If no write fails, at least as much is written; and if the response is written without error, it is the same. -/
theorem write_better (F : Fold) (d : Serializer) (p : Proto) (req : Request) (f : Fields) (ws : List (Option GoErr)) :
    let x := write F d p req f { wscript := ws }
    let y := write F d p req f {}
    x.client.written <+: y.client.written ∧ ((∀ e, x.out ≠ .done (some e)) → y.out = x.out ∧ y.ser = x.ser ∧ y.client.written = x.client.written) := by
  dsimp only
  cases ha : f.Attachment.content with
  | none =>
    unfold write
    simp only [ha]
    refine ⟨by simp [Client.write], fun h => ?_⟩
    split at h
    · exact absurd rfl (h _)
    · rename_i hk
      cases hx : (Client.write { wscript := ws } (renderPlain F ((d.renderProtocol p).renderResponseLine f) req f).buff).1 with
      | some e => exact absurd (by rw [hx]) (h e)
      | none => simp [Client.write]
  | some r =>
    rw [write_attachment F d p req f _ r ha, write_attachment F d p req f _ r ha]
    rw [show Client.write {} (attachText F d p f) = (none, { written := [attachText F d p f] }) from rfl]
    have hw2 : (Client.write { wscript := ws } (attachText F d p f)).2.written = [attachText F d p f] := rfl
    have hw3 : (Client.write { wscript := ws } (attachText F d p f)).2.as [] [attachText F d p f] = { written := [attachText F d p f] } := rfl
    rcases hw : Client.write { wscript := ws } (attachText F d p f) with ⟨e, x'⟩
    rw [hw] at hw2 hw3
    dsimp only at hw2 hw3 ⊢
    cases e with
    | some e =>
      refine ⟨?_, fun h => absurd rfl (h _)⟩
      show x'.written <+: _
      split
      · rw [hw2]; exact List.prefix_refl _
      · rw [hw2]
        unfold stream
        dsimp only
        generalize (if d.fileBuff.length = 0 then List.replicate d.fileBuffSize 0 else d.fileBuff) = mem
        split
        · obtain ⟨fr, hfr, -⟩ := plain_careful (readerSize r) mem r { written := [attachText F d p f] }
          rw [hfr]; exact List.prefix_append _ _
        · obtain ⟨fr, hfr, -⟩ := chunked_careful (readerSize r) mem r { written := [attachText F d p f] }
          rw [hfr]; exact List.prefix_append _ _
    | none =>
      dsimp only
      split
      · exact ⟨by rw [hw2]; exact List.prefix_refl _, fun _ => ⟨rfl, rfl, hw2.symm⟩⟩
      · unfold stream
        dsimp only
        rw [← hw3]
        generalize (if d.fileBuff.length = 0 then List.replicate d.fileBuffSize 0 else d.fileBuff) = mem
        split
        · obtain ⟨⟨fr, fr0, h1, h2, h3⟩, h4⟩ := plain_better (readerSize r) mem r x' [attachText F d p f]
          rw [h1, h2, hw2]
          refine ⟨by simpa using h3, fun hne => ?_⟩
          obtain ⟨a1, a2, fr', a3, a4⟩ := h4 hne
          rw [a1, a2]
          refine ⟨rfl, rfl, ?_⟩
          rw [h1] at a3
          rw [h2] at a4
          rw [List.append_cancel_left a3, List.append_cancel_left a4]
        · obtain ⟨⟨fr, fr0, h1, h2, h3⟩, h4⟩ := chunked_better (readerSize r) mem r x' [attachText F d p f]
          rw [h1, h2, hw2]
          refine ⟨by simpa using h3, fun hne => ?_⟩
          obtain ⟨a1, a2, fr', a3, a4⟩ := h4 hne
          rw [a1, a2]
          refine ⟨rfl, rfl, ?_⟩
          rw [h1] at a3
          rw [h2] at a4
          rw [List.append_cancel_left a3, List.append_cancel_left a4]

end Indigo.Serializer
