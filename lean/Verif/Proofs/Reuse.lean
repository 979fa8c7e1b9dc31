/-
What a response looks like on the wire does not depend on what was sent before on the connection, unless default headers were set.
-/
import Verif.Proofs.Exchange
import Verif.Proofs.DeafWrite

namespace Indigo.Serializer
open Indigo.Spec

theorem exclude_none (F : Fold) (key : Bytes) : ∀ (hs : List DefaultHeader), (∀ h ∈ hs, F.eq h.Key key = false) → exclude F key hs = hs := by
  intro hs
  induction hs with
  | nil => intro _; rfl
  | cons h hs ih =>
    intro hall
    simp [exclude, hall h (by simp), ih (fun x hx => hall x (by simp [hx]))]

theorem excludeAll_none (F : Fold) (ps : List Pair) (hs : List DefaultHeader) : (∀ p ∈ ps, ∀ h ∈ hs, F.eq h.Key p.Key = false) → excludeAll F ps hs = hs := by
  induction ps with
  | nil => intro _; rfl
  | cons p ps ih =>
    intro hall
    have := ih (fun q hq => hall q (by simp [hq]))
    simp only [excludeAll, List.foldl_cons] at this ⊢
    rw [exclude_none F p.Key hs (hall p (by simp)), this]

theorem ready_first (F : Fold) (n : Int) (defs : List (Bytes × Bytes)) : Ready F n defs [] (new n defs) := by
  refine ⟨rfl, ?_, rfl, Or.inl rfl⟩
  simp [new, processDefaultHeaders_eq, defaultsAfter]

/-- After a response which sets none of the default headers, the serializer is as before. -/
theorem ready_apart {F : Fold} {n : Int} {defs : List (Bytes × Bytes)} {d : Serializer} (h : Ready F n defs [] d)
    (p : Proto) (req : Request) (f : Fields) (c : Client) (apart : ∀ x ∈ f.Headers, ∀ kv ∈ defs, F.eq kv.1 x.Key = false) :
    Ready F n defs [] (write F d p req f c).ser := by
  have hx : excludeAll F f.Headers d.defaultHeaders = defaultsAfter F defs [] := by
    rw [h.defaults]
    refine excludeAll_none F _ _ (fun x hx dh hdh => ?_)
    simp only [defaultsAfter, List.mem_map] at hdh
    obtain ⟨kv, hkv, rfl⟩ := hdh
    exact apart x hx kv hkv
  cases ha : f.Attachment.content with
  | none =>
    rw [write_plain F d p req f c ha]
    exact ⟨rfl, hx, h.size, h.mem⟩
  | some r =>
    rw [write_attachment F d p req f c r ha]
    simp only
    cases hw : c.write (attachText F d p f) with
    | mk e c1 =>
      cases e with
      | some x => exact ⟨rfl, hx, h.size, h.mem⟩
      | none =>
        simp only
        split
        · exact ⟨rfl, hx, h.size, h.mem⟩
        · refine ⟨rfl, hx, h.size, Or.inr ?_⟩
          have hm := mem_ready h
          have hs := h.size
          simp only [stream]
          generalize (if d.fileBuff.length = 0 then List.replicate d.fileBuffSize 0 else d.fileBuff) = mem at hm
          have h16 : 16 ≤ mem.length := by rw [hm]; split <;> omega
          split
          · rw [writePlainBody_mem, hm, hs]
          · rw [writeChunkedBody_mem _ _ _ _ h16, hm, hs]

/-- Whatever is left in the buffer for files, the same is written. -/
theorem plain_alike : ∀ (fuel : Nat) (mem mem' : Bytes) (r : Reader) (c : Client), mem.length = mem'.length →
    (writePlainBody fuel mem r c).1 = (writePlainBody fuel mem' r c).1 ∧ (writePlainBody fuel mem r c).2.2 = (writePlainBody fuel mem' r c).2.2 := by
  intro fuel
  induction fuel with
  | zero => intros; exact ⟨rfl, rfl⟩
  | succ fuel ih =>
    intro mem mem' r c hl
    have hs : ∀ d : Bytes, slice (copyAt mem 0 d) 0 d.length = slice (copyAt mem' 0 d) 0 d.length := by
      intro d
      simp only [slice, copyAt, List.take_zero, List.nil_append, List.drop_zero, Nat.sub_zero, Nat.zero_add, hl]
      by_cases h : d.length ≤ mem'.length
      · rw [List.take_of_length_le (l := d) h, List.take_append_of_le_length (by omega), List.take_append_of_le_length (by omega)]
      · rw [List.drop_of_length_le (by omega), List.drop_of_length_le (by omega)]
    simp only [writePlainBody, ← hl]
    rcases Reader.read mem.length r with ⟨⟨d, e⟩, r'⟩
    cases e with
    | none =>
      dsimp only
      rw [hs d]
      rcases c.write (slice (copyAt mem' 0 d) 0 d.length) with ⟨e, c'⟩
      cases e with
      | none =>
        refine ih _ _ _ _ ?_
        simp only [copyAt, List.length_append, List.length_take, List.length_drop]
        omega
      | some e => exact ⟨rfl, rfl⟩
    | some e => cases e <;> exact ⟨rfl, rfl⟩

theorem chunked_alike : ∀ (fuel : Nat) (mem mem' : Bytes) (r : Reader) (c : Client), mem.length = mem'.length → 16 ≤ mem.length →
    (writeChunkedBody fuel mem r c).1 = (writeChunkedBody fuel mem' r c).1 ∧ (writeChunkedBody fuel mem r c).2.2 = (writeChunkedBody fuel mem' r c).2.2 := by
  intro fuel
  induction fuel with
  | zero => intros; exact ⟨rfl, rfl⟩
  | succ fuel ih =>
    intro mem mem' r c hl h16
    simp only [writeChunkedBody, ← hl]
    obtain ⟨⟨d, err⟩, r', hr⟩ : ∃ de r', Reader.read (mem.length - 2 - 10) r = (de, r') := ⟨_, _, rfl⟩
    have hd := (read_spec r d err r' hr).1
    have hml : (copyAt mem 10 d).length = mem.length := copyAt_length (by omega)
    have hml' : (copyAt mem' 10 d).length = mem'.length := copyAt_length (by omega)
    rw [hr]
    dsimp only
    split
    · by_cases hx : (hexBytes d.length).length ≤ 8
      · obtain ⟨m1, e1, l1⟩ := chunkFrame_eq (mem := mem) (d := d) (by omega) hx
        obtain ⟨m2, e2, l2⟩ := chunkFrame_eq (mem := mem') (d := d) (by omega) hx
        rw [e1, e2]
        dsimp only
        rcases c.write (frame d) with ⟨e, c'⟩
        cases e with
        | some e => exact ⟨rfl, rfl⟩
        | none =>
          dsimp only
          cases chunkEnd c' err with
          | some oc => exact ⟨rfl, rfl⟩
          | none => exact ih _ _ _ _ (by omega) (by omega)
      · have : ∀ m, chunkFrame m d.length = none := by
          intro m
          unfold chunkFrame
          simp only
          rw [if_pos (by omega)]
        rw [this, this]
        exact ⟨rfl, rfl⟩
    · cases chunkEnd c err with
      | some oc => exact ⟨rfl, rfl⟩
      | none => exact ih _ _ _ _ (by omega) (by omega)

/-- Two serializers between two responses, whose default headers are the same, write the same. -/
theorem write_alike {F : Fold} {n : Int} {defs : List (Bytes × Bytes)} {earlier : List Pair} {d d' : Serializer} (h : Ready F n defs earlier d) (h' : Ready F n defs earlier d')
    (p : Proto) (req : Request) (f : Fields) (c : Client) :
    (write F d p req f c).out = (write F d' p req f c).out ∧ (write F d p req f c).client = (write F d' p req f c).client := by
  cases ha : f.Attachment.content with
  | none =>
    rw [write_plain F d p req f c ha, write_plain F d' p req f c ha]
    simp only [h.buff, h'.buff, h.defaults, h'.defaults, and_self]
  | some r =>
    rw [write_attachment F d p req f c r ha, write_attachment F d' p req f c r ha]
    have ht : attachText F d p f = attachText F d' p f := by simp [attachText, h.buff, h'.buff, h.defaults, h'.defaults]
    rw [ht]
    dsimp only
    rcases c.write (attachText F d' p f) with ⟨e, c1⟩
    cases e with
    | some x => exact ⟨rfl, rfl⟩
    | none =>
      dsimp only
      split
      · exact ⟨rfl, rfl⟩
      · have hm := mem_ready h
        have hm' := mem_ready h'
        simp only [stream]
        generalize (if d.fileBuff.length = 0 then List.replicate d.fileBuffSize 0 else d.fileBuff) = mem at hm
        generalize (if d'.fileBuff.length = 0 then List.replicate d'.fileBuffSize 0 else d'.fileBuff) = mem' at hm'
        have h16 : 16 ≤ mem.length := by rw [hm]; split <;> omega
        split
        · exact plain_alike _ _ _ _ _ (hm.trans hm'.symm)
        · exact chunked_alike _ _ _ _ _ (hm.trans hm'.symm) h16

end Indigo.Serializer
