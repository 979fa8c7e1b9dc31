/-
C81 Files are sent through a buffer of bounded size.
-/
import Verif.Props.ServeWitness
import Verif.Props.Response

namespace Indigo.Props
open Indigo.Spec Indigo.Serializer Indigo.Serve

/-- The frames a write has added have at most `n` bytes. -/
private def Adds (n : Nat) (c c' : Client) : Prop :=
  ∃ frames, c'.written = c.written ++ frames ∧ ∀ fr ∈ frames, fr.length ≤ n

private theorem Adds.refl (n : Nat) (c : Client) : Adds n c c := ⟨[], by simp, by simp⟩

private theorem Adds.trans {n : Nat} {a b c : Client} (h : Adds n a b) (k : Adds n b c) : Adds n a c := by
  obtain ⟨f, h1, h2⟩ := h
  obtain ⟨g, k1, k2⟩ := k
  refine ⟨f ++ g, by rw [k1, h1, List.append_assoc], ?_⟩
  intro fr hfr
  rcases List.mem_append.1 hfr with h | h
  · exact h2 _ h
  · exact k2 _ h

private theorem Adds.write {n : Nat} {c : Client} {b : Bytes} (h : b.length ≤ n) : Adds n c (c.write b).2 :=
  ⟨[b], rfl, by simpa using h⟩

private theorem plain_adds : ∀ (fuel : Nat) (mem : Bytes) (r : Reader) (c : Client),
    Adds mem.length c (writePlainBody fuel mem r c).2.2 := by
  intro fuel
  induction fuel with
  | zero => intros; exact Adds.refl _ _
  | succ fuel ih =>
    intro mem r c
    obtain ⟨⟨d, err⟩, r', hr⟩ : ∃ de r', Reader.read mem.length r = (de, r') := ⟨_, _, rfl⟩
    have hd := (read_spec r d err r' hr).1
    have hml : (copyAt mem 0 d).length = mem.length := copyAt_length (by omega)
    have hfr : (slice (copyAt mem 0 d) 0 d.length).length ≤ mem.length := by simp [slice]; omega
    simp only [writePlainBody, hr]
    cases err with
    | none =>
      simp only
      have hw2 := Adds.write (c := c) hfr
      cases hw : c.write (slice (copyAt mem 0 d) 0 d.length) with
      | mk e c1 =>
        rw [hw] at hw2
        cases e with
        | none =>
          simp only
          have := ih (copyAt mem 0 d) r' c1
          rw [hml] at this
          exact hw2.trans this
        | some x => exact hw2
    | some x => cases x <;> exact Adds.refl _ _

private theorem chunkEnd_adds {n : Nat} (hn : 16 ≤ n) {c c' : Client} {err : Option GoErr} {o : WOut} (h : chunkEnd c err = some (o, c')) :
    Adds n c c' := by
  unfold chunkEnd at h
  split at h
  · cases h
  · cases h; exact Adds.write (Nat.le_trans (by decide) hn)
  · cases h; exact Adds.refl _ _

private theorem chunked_adds : ∀ (fuel : Nat) (mem : Bytes) (r : Reader) (c : Client), 16 ≤ mem.length →
    Adds mem.length c (writeChunkedBody fuel mem r c).2.2 := by
  intro fuel
  induction fuel with
  | zero => intros; exact Adds.refl _ _
  | succ fuel ih =>
    intro mem r c hm
    obtain ⟨⟨d, err⟩, r', hr⟩ : ∃ de r', Reader.read (mem.length - 2 - 10) r = (de, r') := ⟨_, _, rfl⟩
    have hd := (read_spec r d err r' hr).1
    have hml : (copyAt mem 10 d).length = mem.length := copyAt_length (by omega)
    simp only [writeChunkedBody, hr]
    split
    · cases hf : chunkFrame (copyAt mem 10 d) d.length with
      | none => exact Adds.refl _ _
      | some mf =>
        obtain ⟨mem', fr⟩ := mf
        have hl := chunkFrame_mem (by omega) hf
        have hfl : fr.length ≤ mem.length := by
          unfold chunkFrame at hf
          simp only at hf
          split at hf
          · simp at hf
          · simp only [Option.some.injEq, Prod.mk.injEq] at hf
            rw [← hf.2, hf.1]
            simp [slice]; omega
        simp only
        have hw2 := Adds.write (c := c) hfl
        cases hw : c.write fr with
        | mk e c1 =>
          rw [hw] at hw2
          cases e with
          | some x => exact hw2
          | none =>
            simp only
            cases he : chunkEnd c1 err with
            | some oc => exact hw2.trans (chunkEnd_adds hm he)
            | none =>
              have := ih mem' r' c1 (by omega)
              rw [hl, hml] at this
              exact hw2.trans this
    · cases he : chunkEnd c err with
      | some oc => exact chunkEnd_adds hm he
      | none =>
        have := ih (copyAt mem 10 d) r' c (by omega)
        rw [hml] at this
        exact this

/-- **C81 (part).** A response with an attachment is sent by writes of at most `n` bytes (16, if `n` is less) after the head,
however much the reader gives, whatever the reader and the connection do, and whatever has been sent before on
the connection: the memory used for sending a file does not depend on the file. `n` is the size given to the serializer (the setting
`ResponseBuffSize`, see below). -/
theorem C81_bounded_partial (F : Fold) (n : Int) {defaults : List (Bytes × Bytes)} (hd : DefaultsOK F defaults)
    (history : List Sent) (p : Proto) (req : Request) {f : Fields} {r : Reader} (ha : f.Attachment.content = some r) (c : Client) :
    let w := (serializerAfter F n defaults history).write F p req f c
    ∃ head frames, w.client.written = c.written ++ head :: frames ∧ ∀ fr ∈ frames, (fr.length : Int) ≤ max n 16 := by
  have hr := ready_after n hd.distinct history
  generalize serializerAfter F n defaults history = d at hr
  have hmem := mem_ready hr
  intro w
  have hw1 : (c.write (attachText F d p f)).2.written = c.written ++ [attachText F d p f] := rfl
  simp only [w]
  rw [write_attachment F d p req f c r ha]
  simp only
  cases hw : c.write (attachText F d p f) with
  | mk e c1 =>
    rw [hw] at hw1
    simp only at hw1
    cases e with
    | some x => exact ⟨_, [], hw1, by simp⟩
    | none =>
      simp only
      split
      · exact ⟨_, [], hw1, by simp⟩
      · simp only [stream]
        generalize (if d.fileBuff.length = 0 then List.replicate d.fileBuffSize 0 else d.fileBuff) = mem at hmem
        have h16 : 16 ≤ mem.length := by rw [hmem]; split <;> omega
        have hle : (mem.length : Int) ≤ max n 16 := by rw [hmem]; split <;> omega
        have key : Adds mem.length c1 (if f.Attachment.size > 0 then writePlainBody (readerSize r) mem r c1
            else writeChunkedBody (readerSize r) mem r c1).2.2 := by
          split
          · exact plain_adds _ _ _ _
          · exact chunked_adds _ _ _ _ h16
        obtain ⟨frames, k1, k2⟩ := key
        refine ⟨attachText F d p f, frames, by rw [k1, hw1]; simp, ?_⟩
        intro fr hfr
        have := k2 fr hfr
        omega

/-- Data in pieces of `n` bytes, the last one possibly shorter. -/
def cutBy (n : Nat) : Nat → Bytes → List Bytes
  | 0, _ => []
  | fuel + 1, b => if b = [] then [] else if b.length ≤ n then [b] else b.take n :: cutBy n fuel (b.drop n)

private theorem plain_file (data : Bytes) : ∀ (fuel : Nat) (mem : Bytes) (c : Client), 0 < mem.length → data.length < fuel →
    NoWriteError c → data ≠ [] →
    (writePlainBody fuel mem [(data, none)] c).2.2.written = c.written ++ cutBy mem.length fuel data := by
  intro fuel
  induction fuel generalizing data with
  | zero => intros; omega
  | succ fuel ih =>
    intro mem c hm hf hc hne
    have hpos : 0 < data.length := List.length_pos_iff.2 hne
    obtain ⟨hok, hno⟩ := write_noError hc (slice (copyAt mem 0 (data.take mem.length)) 0 (data.take mem.length).length)
    have hsl : slice (copyAt mem 0 (data.take mem.length)) 0 (data.take mem.length).length = data.take mem.length :=
      slice_copy (by simp; omega)
    have hl : (copyAt mem 0 (data.take mem.length)).length = mem.length := copyAt_length (by simp; omega)
    rw [cutBy, if_neg hne]
    by_cases hle : data.length ≤ mem.length
    · rw [if_pos hle]
      have ht : data.take mem.length = data := List.take_of_length_le hle
      rw [ht] at hsl hok hno hl
      simp only [writePlainBody, Reader.read, if_pos hle]
      rw [hsl] at hok ⊢
      have hw1 : (c.write data).2.written = c.written ++ [data] := rfl
      cases hw : c.write data with
      | mk e c1 =>
        rw [hw] at hok hw1
        simp only at hok hw1
        subst hok
        simp only
        obtain ⟨fuel, rfl⟩ : ∃ k, fuel = k + 1 := ⟨fuel - 1, by omega⟩
        simp only [writePlainBody, Reader.read]
        exact hw1
    · rw [if_neg hle]
      simp only [writePlainBody, Reader.read, if_neg hle]
      rw [hsl] at hok hno ⊢
      have hw1 : (c.write (data.take mem.length)).2.written = c.written ++ [data.take mem.length] := rfl
      cases hw : c.write (data.take mem.length) with
      | mk e c1 =>
        rw [hw] at hok hno hw1
        simp only at hok hno hw1
        subst hok
        simp only
        have := ih (data.drop mem.length) (copyAt mem 0 (data.take mem.length)) c1 (by omega) (by simp; omega) hno
          (by intro h; have := congrArg List.length h; simp at this; omega)
        rw [this, hw1, hl]
        simp

/-- **C81 (part).** A file, which gives as much as is asked for, is sent in pieces which fill the buffer, except for the
last one. -/
theorem C81_file_pieces_partial (F : Fold) (n : Int) {defaults : List (Bytes × Bytes)} (hd : DefaultsOK F defaults)
    (history : List Sent) (p : Proto) (req : Request) (hm : req.Method ≠ .HEAD) {f : Fields} {data : Bytes} (hne : data ≠ [])
    (ha : f.Attachment.content = some [(data, none)]) (hs : f.Attachment.size = data.length) (c : Client) (hc : NoWriteError c) :
    let w := (serializerAfter F n defaults history).write F p req f c
    ∃ head frames, w.client.written = c.written ++ head :: frames ∧ frames.flatten = data ∧
      (∀ fr ∈ frames.dropLast, (fr.length : Int) = max n 16) ∧ ∀ fr ∈ frames, (fr.length : Int) ≤ max n 16 := by
  have hr := ready_after n hd.distinct history
  generalize serializerAfter F n defaults history = d at hr
  have hmem := mem_ready hr
  intro w
  have hw1 : (c.write (attachText F d p f)).2.written = c.written ++ [attachText F d p f] := rfl
  obtain ⟨hok, hno⟩ := write_noError hc (attachText F d p f)
  simp only [w]
  rw [write_attachment F d p req f c _ ha]
  simp only
  cases hw : c.write (attachText F d p f) with
  | mk e c1 =>
    rw [hw] at hw1 hok hno
    simp only at hw1 hok hno
    subst hok
    have hpos : 0 < data.length := List.length_pos_iff.2 hne
    simp only [if_neg hm, stream, if_pos (show f.Attachment.size > 0 by omega)]
    generalize (if d.fileBuff.length = 0 then List.replicate d.fileBuffSize 0 else d.fileBuff) = mem at hmem
    have h16 : 16 ≤ mem.length := by rw [hmem]; split <;> omega
    have hle : (mem.length : Int) = max n 16 := by rw [hmem]; split <;> omega
    have hlt : data.length < readerSize [(data, none)] := by simp [readerSize]; omega
    rw [plain_file data _ mem c1 (by omega) hlt hno hne, hw1]
    refine ⟨attachText F d p f, cutBy mem.length (readerSize [(data, none)]) data, by simp, ?_⟩
    rw [← hle]
    have key : ∀ (fuel : Nat) (b : Bytes), b.length < fuel → (cutBy mem.length fuel b).flatten = b ∧
        (∀ fr ∈ (cutBy mem.length fuel b).dropLast, (fr.length : Int) = mem.length) ∧
        ∀ fr ∈ cutBy mem.length fuel b, (fr.length : Int) ≤ mem.length := by
      intro fuel
      induction fuel with
      | zero => intros; omega
      | succ fuel ih =>
        intro b hb
        rw [cutBy]
        split
        · rename_i h0; subst h0; simp
        · split
          · rename_i h1; simp; omega
          · obtain ⟨k1, k2, k3⟩ := ih (b.drop mem.length) (by simp; omega)
            have htl : (b.take mem.length).length = mem.length := by simp; omega
            refine ⟨by simp [k1], ?_, ?_⟩
            · intro fr hfr
              cases hcut : cutBy mem.length fuel (b.drop mem.length) with
              | nil => rw [hcut] at hfr; simp at hfr
              | cons x xs =>
                rw [hcut, List.dropLast_cons_cons] at hfr
                rcases List.mem_cons.1 hfr with rfl | hfr
                · exact congrArg Int.ofNat htl
                · rw [hcut] at k2; exact k2 fr hfr
            · intro fr hfr
              rcases List.mem_cons.1 hfr with rfl | hfr
              · rw [htl]; exact Int.le_refl _
              · exact k3 fr hfr
    exact key _ data hlt

/-- The hypotheses are met: a file of 40 bytes, and a buffer of 16 bytes. -/
example : (Serializer.write Fold.ascii (Serializer.new 16 []) Proto.HTTP11 sampleReq
      (({} : Fields).attachment (some [(List.replicate 40 97, none)]) 40) {}).client.written.tail.map List.length = [16, 16, 8] := by
  decide +kernel

/-- A handler which answers with a file of 2000 bytes. -/
def sendFile : Router.Handler Act := fun r => pure (Fields.new.attachment (some [(List.replicate 2000 97, none)]) 2000, r)

/-- **C81** is false: the setting `FileBuffSize` ("the size of the read buffer when reading a file") has no effect at
all. By default it is 65536, but a file of 2000 bytes is sent in two pieces: the buffer has `ResponseBuffSize` bytes. -/
theorem C81_file_buffer_violation :
    (∀ {σ ρ : Type} (E : Setup σ ρ) (cfg : Config) (size : Int) (enc : EncToken) (remote : Bytes) (st : ρ) (client : Client),
      serve E (newConn E.P { cfg with fileBuffSize := size } enc remote st client) = serve E (newConn E.P cfg enc remote st client)) ∧
    Config.default.fileBuffSize = 65536 ∧ Config.default.responseBuffSize = 1024 ∧
    (exchange sendFile 0 [b!"GET / HTTP/1.1\r\n\r\n"]).1.tail.map List.length = [1024, 976] := by
  refine ⟨fun _ _ _ _ _ _ _ => rfl, rfl, rfl, by decide +kernel⟩

end Indigo.Props
