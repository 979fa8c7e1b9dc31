/-
Writing a response touches the output side of the connection only, and depends on nothing else of it.
-/
import Verif.Proofs.Exchange

namespace Indigo.Serializer

/-- The connection `k` with the output of `x` after its own. -/
def onto (k x : Client) : Client := { k with written := k.written ++ x.written, wscript := x.wscript }

theorem write_onto (k x : Client) (b : Bytes) : (onto k x).write b = ((x.write b).1, onto k (x.write b).2) := by
  simp [Client.write, onto]

theorem onto_self (c : Client) : onto c { wscript := c.wscript } = c := by
  simp [onto]

theorem writePlainBody_onto (k : Client) : ∀ (fuel : Nat) (mem : Bytes) (r : Reader) (x : Client),
    writePlainBody fuel mem r (onto k x) =
      ((writePlainBody fuel mem r x).1, (writePlainBody fuel mem r x).2.1, onto k (writePlainBody fuel mem r x).2.2) := by
  intro fuel
  induction fuel with
  | zero => intros; rfl
  | succ fuel ih =>
    intro mem r x
    simp only [writePlainBody]
    rcases Reader.read mem.length r with ⟨⟨d, e⟩, r'⟩
    cases e with
    | none =>
      dsimp only
      rw [write_onto]
      rcases x.write (slice (copyAt mem 0 d) 0 d.length) with ⟨e, x'⟩
      cases e with
      | none => exact ih _ _ _
      | some e => rfl
    | some e => cases e <;> rfl

theorem chunkEnd_onto (k x : Client) (e : Option GoErr) :
    chunkEnd (onto k x) e = (chunkEnd x e).map (fun oc => (oc.1, onto k oc.2)) := by
  cases e with
  | none => rfl
  | some e => cases e <;> simp [chunkEnd, write_onto]

theorem writeChunkedBody_onto (k : Client) : ∀ (fuel : Nat) (mem : Bytes) (r : Reader) (x : Client),
    writeChunkedBody fuel mem r (onto k x) =
      ((writeChunkedBody fuel mem r x).1, (writeChunkedBody fuel mem r x).2.1,
        onto k (writeChunkedBody fuel mem r x).2.2) := by
  intro fuel
  induction fuel with
  | zero => intros; rfl
  | succ fuel ih =>
    intro mem r x
    simp only [writeChunkedBody]
    rcases Reader.read (mem.length - 2 - 10) r with ⟨⟨d, e⟩, r'⟩
    dsimp only
    have key : ∀ (m : Bytes) (x : Client),
        (match chunkEnd (onto k x) e with
          | some (o, c) => (o, m, c)
          | none => writeChunkedBody fuel m r' (onto k x)) =
        ((match chunkEnd x e with
          | some (o, c) => (o, m, c)
          | none => writeChunkedBody fuel m r' x).1,
         (match chunkEnd x e with
          | some (o, c) => (o, m, c)
          | none => writeChunkedBody fuel m r' x).2.1,
         onto k (match chunkEnd x e with
          | some (o, c) => (o, m, c)
          | none => writeChunkedBody fuel m r' x).2.2) := by
      intro m x
      rw [chunkEnd_onto]
      cases chunkEnd x e with
      | none => exact ih _ _ _
      | some oc => rfl
    split
    · cases chunkFrame (copyAt mem 10 d) d.length with
      | none => rfl
      | some mf =>
        obtain ⟨m, frame⟩ := mf
        dsimp only
        rw [write_onto]
        rcases x.write frame with ⟨e', x'⟩
        cases e' with
        | none => exact key _ _
        | some e' => rfl
    · exact key _ _

theorem stream_onto (k : Client) (size : Int) (r : Reader) (d : Serializer) (x : Client) :
    stream size r d (onto k x) = { stream size r d x with client := onto k (stream size r d x).client } := by
  unfold stream
  dsimp only
  split
  · rw [writePlainBody_onto]
  · rw [writeChunkedBody_onto]

/-- `Write` on a connection is `Write` on an unused one with the same future, appended. -/
theorem write_eq_onto (F : Fold) (d : Serializer) (p : Proto) (req : Request) (f : Fields) (c : Client) :
    write F d p req f c =
      { write F d p req f { wscript := c.wscript } with
        client := onto c (write F d p req f { wscript := c.wscript }).client } := by
  have key : ∀ x : Client, write F d p req f (onto c x) =
      { write F d p req f x with client := onto c (write F d p req f x).client } := by
    intro x
    cases ha : f.Attachment.content with
    | none =>
      unfold write
      simp only [ha, write_onto]
    | some r =>
      rw [write_attachment F d p req f _ r ha, write_attachment F d p req f _ r ha]
      simp only [write_onto]
      rcases x.write (attachText F d p f) with ⟨e, x'⟩
      cases e with
      | some e => rfl
      | none =>
        dsimp only
        split
        · rfl
        · exact stream_onto c _ _ _ _
  have := key { wscript := c.wscript }
  rwa [onto_self] at this

theorem write_buff (F : Fold) (d : Serializer) (p : Proto) (req : Request) (f : Fields) (c : Client) :
    (write F d p req f c).ser.buff = [] := by
  cases ha : f.Attachment.content with
  | none => rw [write_plain F d p req f c ha]
  | some r =>
    rw [write_attachment F d p req f c r ha]
    simp only
    rcases c.write (attachText F d p f) with ⟨e, x'⟩
    cases e with
    | some e => rfl
    | none =>
      dsimp only
      split
      · rfl
      · rfl

end Indigo.Serializer
