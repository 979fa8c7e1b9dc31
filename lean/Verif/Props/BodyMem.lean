/-
C84: nothing that is read is overwritten before it is used, with one exception; strings of bodies keep their content only within the request.
-/
import Verif.Spec.BodyMem
import Verif.Spec.Chunked
import Verif.Proofs.BodyMem

namespace Indigo.BodyMem
open ResponseMem (Mem Slice append Valid append_read)
open Indigo.Spec (refParser)
section
variable {σ : Type}

/-- What holds between the steps. -/
private structure Inv (maxAlloc : Nat) (rest : Rest) (st : St σ) (s : BC σ) : Prop extends Sim st s where
  within : Inside st.cl.buff st.stash
  alloc : st.body.contentLength ≤ maxAlloc
  nothing : rest = .nothing → s.1.stashPending = []
  stash : rest ≠ .outdated → Stash st s

private theorem Inv.weaken {maxAlloc : Nat} {rest : Rest} {st : St σ} {s : BC σ} (h : Inv maxAlloc rest st s) : Inv maxAlloc .outdated st s :=
  ⟨h.toSim, h.within, h.alloc, by simp, by simp⟩

private theorem outdate_nothing {rest : Rest} (h : rest.outdate = .nothing) : rest = .nothing := by
  cases rest <;> simp_all [Rest.outdate]

private theorem outdate_not {rest : Rest} (h : rest.outdate ≠ .outdated) : rest = .nothing := by
  cases rest <;> simp_all [Rest.outdate]

private theorem inv_kept {maxAlloc : Nat} {rest : Rest} {st st' : St σ} {s s' : BC σ} (h : Inv maxAlloc rest st s) (hk : Kept st st' s s') :
    Inv maxAlloc rest.outdate st' s' := by
  have hs := hk.sim' h.toSim
  refine ⟨hs, by rw [hk.stash.1]; exact inside_length hk.buff h.within, by rw [hk.content]; exact h.alloc, ?_, ?_⟩
  · intro hr
    rw [hk.stash.2]
    exact h.nothing (outdate_nothing hr)
  · intro hr
    exact stash_empty hs (by rw [hk.stash.2]; exact h.nothing (outdate_not hr))

private theorem drained_stash (P : ChunkedParser σ) (n : Nat) (s : BC σ)
    (h : drained n (.piece (Body.read P n s).1.1 (Body.read P n s).1.2) = true) : (Body.read P n s).2.1.stashPending = [] := by
  simp only [drained, Body.read, Bool.or_eq_true, decide_eq_true_eq] at h ⊢
  generalize (if s.1.stashPending.length = 0 ∧ s.1.stashError = none then
      (({ (Body.retrieve P s).2.1 with stashPending := (Body.retrieve P s).1.1, stashError := (Body.retrieve P s).1.2 }, (Body.retrieve P s).2.2) : BC σ)
    else s) = s' at h ⊢
  rcases h with h | h
  · rw [List.length_take] at h
    exact List.drop_of_length_le (by omega)
  · split at h
    · rename_i h0
      exact List.eq_nil_of_length_eq_zero h0
    · simp at h

private theorem initFor_content (b : Body σ) (r : Request) : (b.initFor r).contentLength = r.ContentLength := by
  unfold Body.initFor
  simp only
  split <;> rfl

private theorem initFor_stash (b : Body σ) (r : Request) : (b.initFor r).stashPending = [] := by
  unfold Body.initFor
  simp only

private theorem initFor_with (b : Body σ) (r : Request) (x f : Bytes) (n : Nat) :
    ({ b with stashPending := x, fullBodyBuff := f, fullCap := n } : Body σ).initFor r =
      { b.initFor r with stashPending := [], fullBodyBuff := f, fullCap := n } := by
  unfold Body.initFor
  simp only
  split <;> rfl

private theorem step_inv (grow : Nat → Nat → Nat) (P : ChunkedParser σ) (S : Slicing P) (maxAlloc : Nat) {st : St σ} {s : BC σ} {rest : Rest}
    (k : Step) (alloc : ∀ r, k = .request r → r.ContentLength ≤ (maxAlloc : Int)) (h : Inv maxAlloc rest st s) :
    (match k with
      | .call (.read n) =>
        blurred k (step grow P S st k).1 = blurred k (valueStep P maxAlloc s k).1 ∧
        Inv maxAlloc .outdated (step grow P S st k).2 (valueStep P maxAlloc s k).2 ∧
        (rest ≠ .outdated → (step grow P S st k).1 = (valueStep P maxAlloc s k).1 ∧
          Inv maxAlloc (if drained n (valueStep P maxAlloc s k).1 then .nothing else .something) (step grow P S st k).2 (valueStep P maxAlloc s k).2)
      | .request _ => (step grow P S st k).1 = (valueStep P maxAlloc s k).1 ∧ Inv maxAlloc .nothing (step grow P S st k).2 (valueStep P maxAlloc s k).2
      | _ => (step grow P S st k).1 = (valueStep P maxAlloc s k).1 ∧ Inv maxAlloc rest.outdate (step grow P S st k).2 (valueStep P maxAlloc s k).2) := by
  cases k with
  | head used =>
    obtain ⟨r1, r2, r3, r4, r5⟩ := read_sim h.client
    simp only [step, valueStep]
    generalize st.cl.read = x at r1 r2 r3 r4 r5
    generalize s.2.read = y at r1 r2 r4
    obtain ⟨⟨p, e⟩, c⟩ := x
    obtain ⟨⟨d, e'⟩, v⟩ := y
    simp only at r1 r2 r3 r4 r5
    subst r2
    subst r1
    refine ⟨rfl, inv_kept h ⟨⟨h.body, ?_, h.full⟩, ⟨rfl, rfl⟩, rfl, ?_⟩⟩
    · simp only
      split
      · refine unread_sim r4 (inside_drop r3 (Nat.min_le_right _ _)) ?_
        rw [get_drop]
        by_cases hn : used ≤ p.len
        · rw [Nat.min_eq_left hn]
        · have hl := get_length r3
          rw [Nat.min_eq_right (by omega), List.drop_of_length_le (by omega), List.drop_of_length_le (by omega)]
      · exact r4
    · simp only
      split <;> exact r5
  | request r =>
    simp only [step, valueStep, St.initFor]
    refine ⟨trivial, ⟨⟨⟨?_, h.client, h.full⟩, ?_⟩, inside_nil _, ?_, ?_, ?_⟩⟩
    · simp only
      have hb := h.body
      rw [hb, initFor_with]
    · simp only [initFor_stash]
      rfl
    · rw [initFor_content]
      exact alloc r rfl
    · intro _
      exact initFor_stash _ _
    · intro _
      unfold Stash
      simp only [initFor_stash]
      exact get_nil _
  | call k =>
    simp only [step, valueStep]
    have hsz : st.size + 2 = Body.fuel s := by rw [size_sim h.toBSim]; rfl
    cases k with
    | retrieve =>
      obtain ⟨h1, h2⟩ := retrieve_sim S h.toBSim
      refine ⟨?_, inv_kept h h2.kept⟩
      simp only [call, Body.call]
      rw [h1, h2.piece]
    | bytes =>
      obtain ⟨d, e, s', h1, h2, h3, h4⟩ := bytes_sim grow S maxAlloc h.toBSim h.alloc
      simp only [call, Body.call, h1]
      exact ⟨by rw [h2, h3], inv_kept h h4⟩
    | string =>
      obtain ⟨d, e, s', h1, h2, h3, h4⟩ := bytes_sim grow S maxAlloc h.toBSim h.alloc
      simp only [call, Body.call, Body.string, h1]
      exact ⟨by rw [h2, h3], inv_kept h h4⟩
    | callback cb =>
      obtain ⟨h1, h2⟩ := callback_sim S cb (Body.fuel s) [] st s h.toBSim
      simp only [call, Body.call, hsz]
      exact ⟨by rw [h1], inv_kept h h2⟩
    | discard =>
      obtain ⟨h1, h2⟩ := discard_sim S (Body.fuel s) st s h.toBSim
      simp only [call, Body.call, hsz]
      exact ⟨by rw [h1], inv_kept h h2⟩
    | read n =>
      obtain ⟨h1, h2, h3, h4, h5, -, h7⟩ := stashRead_sim S n h.toSim h.within
      simp only [call, Body.call]
      refine ⟨?_, ⟨h3, h4, by rw [h5]; exact h.alloc, by simp, by simp⟩, fun hr => ?_⟩
      · simp only [blurred]
        rw [h1, h2]
      · obtain ⟨q1, q2⟩ := h7 (h.stash hr)
        refine ⟨by rw [q1, h2], h3, h4, by rw [h5]; exact h.alloc, ?_, fun _ => q2⟩
        intro hd
        by_cases hdr : drained n (.piece (Body.read P n s).1.1 (Body.read P n s).1.2) = true
        · exact drained_stash P n s hdr
        · exact absurd hd (by simp [hdr])

private theorem run_inv (grow : Nat → Nat → Nat) (P : ChunkedParser σ) (S : Slicing P) (maxAlloc : Nat) : ∀ (ks : List Step) (st : St σ) (s : BC σ) (rest : Rest),
    Allocatable maxAlloc ks → Inv maxAlloc rest st s →
    List.zipWith blurred ks (run grow P S ks st).1 = List.zipWith blurred ks (valueRun P maxAlloc ks s) ∧
    (Tidy rest ks (valueRun P maxAlloc ks s) → (run grow P S ks st).1 = valueRun P maxAlloc ks s)
  | [], st, s, rest, _, _ => ⟨rfl, fun _ => rfl⟩
  | k :: ks, st, s, rest, ha, h => by
    have hk := step_inv grow P S maxAlloc k (fun r hr => ha r (by simp [hr])) h
    have ha' : Allocatable maxAlloc ks := fun r hr => ha r (by simp [hr])
    simp only [run, valueRun, List.zipWith_cons_cons]
    cases k with
    | head used =>
      obtain ⟨h1, h2⟩ := hk
      obtain ⟨i1, i2⟩ := run_inv grow P S maxAlloc ks _ _ _ ha' h2
      rw [h1, i1]
      exact ⟨rfl, fun ht => by rw [i2 (by simpa [Tidy] using ht)]⟩
    | request r =>
      obtain ⟨h1, h2⟩ := hk
      obtain ⟨i1, i2⟩ := run_inv grow P S maxAlloc ks _ _ _ ha' h2
      rw [h1, i1]
      exact ⟨rfl, fun ht => by rw [i2 (by simpa [Tidy] using ht)]⟩
    | call c =>
      cases c with
      | read n =>
        obtain ⟨h1, h2, h3⟩ := hk
        refine ⟨?_, fun ht => ?_⟩
        · obtain ⟨i1, -⟩ := run_inv grow P S maxAlloc ks _ _ _ ha' h2
          rw [h1, i1]
        · simp only [Tidy] at ht
          obtain ⟨q1, q2⟩ := h3 ht.1
          obtain ⟨-, i2⟩ := run_inv grow P S maxAlloc ks _ _ _ ha' q2
          rw [q1, i2 ht.2]
      | _ =>
        obtain ⟨h1, h2⟩ := hk
        obtain ⟨i1, i2⟩ := run_inv grow P S maxAlloc ks _ _ _ ha' h2
        rw [h1, i1]
        exact ⟨rfl, fun ht => by rw [i2 (by simpa [Tidy] using ht)]⟩

private theorem new_inv (P : ChunkedParser σ) (maxBodyLen size maxAlloc : Nat) (conn : List (Bytes × Option GoErr)) (fits : Fits size conn) :
    Inv maxAlloc .nothing (St.new P maxBodyLen size conn) (Body.new P maxBodyLen, { conn }) := by
  refine ⟨⟨⟨rfl, ⟨get_nil _, inside_nil _, rfl, ?_⟩, ⟨Nat.le_refl _, ?_⟩⟩, rfl⟩, inside_nil _, ?_, fun _ => rfl, fun _ => get_nil _⟩
  · intro ev he
    simpa [St.new] using fits ev he
  · simp [St.new]
  · simp [St.new, Body.new]

/-- **C84 (part).** On every connection, however the bytes arrive, and whatever the parser takes and the applications call, for any number of
requests: everything that is read - by the request parser, with Retrieve, Bytes, String and Callback - is what was sent, although
all of it passes through one buffer, which is used again and again; only the bytes given by Read may be others, and then as many. The memory
of the parts: `Slicing` says where the external chunked parser finds its chunks. -/
theorem C84_not_overwritten_partial (grow : Nat → Nat → Nat) (P : ChunkedParser σ) (S : Slicing P) (maxBodyLen size maxAlloc : Nat)
    (conn : List (Bytes × Option GoErr)) (ks : List Step) (fits : Fits size conn) (alloc : Allocatable maxAlloc ks) :
    List.zipWith blurred ks (run grow P S ks (St.new P maxBodyLen size conn)).1 =
      List.zipWith blurred ks (valueRun P maxAlloc ks (Body.new P maxBodyLen, { conn })) :=
  (run_inv grow P S maxAlloc ks _ _ _ alloc (new_inv P maxBodyLen size maxAlloc conn fits)).1

/-- **C84 (part).** And Read gives the bytes of the body, if within a request no other method is used while something that Read got is not
read yet, followed by a Read (`Tidy`). That the server discards the rest of the body after the handler does no harm. -/
theorem C84_tidy_partial (grow : Nat → Nat → Nat) (P : ChunkedParser σ) (S : Slicing P) (maxBodyLen size maxAlloc : Nat)
    (conn : List (Bytes × Option GoErr)) (ks : List Step) (fits : Fits size conn) (alloc : Allocatable maxAlloc ks)
    (tidy : Tidy .nothing ks (valueRun P maxAlloc ks (Body.new P maxBodyLen, { conn }))) :
    (run grow P S ks (St.new P maxBodyLen size conn)).1 = valueRun P maxAlloc ks (Body.new P maxBodyLen, { conn }) :=
  (run_inv grow P S maxAlloc ks _ _ _ alloc (new_inv P maxBodyLen size maxAlloc conn fits)).2 tidy

/-- The chunked parser of the specification copies (it joins chunks). -/
def refSlicing : Slicing refParser := { chunkAt := fun _ _ _ => none, inside := fun _ _ _ _ h => by cases h }

/-- Slices of exactly the length which is needed. -/
def tight : Nat → Nat → Nat := fun _ n => n

private theorem retrieve_at_eof (P : ChunkedParser σ) (S : Slicing P) (st : St σ) (h : st.body.eof = true) :
    retrieve P S st = ((.nil, some .eof), st) := by
  unfold retrieve
  rw [if_pos h]

private theorem retrieve_eof (P : ChunkedParser σ) (S : Slicing P) (st : St σ) (h : (retrieve P S st).1.2 = some .eof) :
    (retrieve P S st).2.body.eof = true := by
  unfold retrieve at h ⊢
  split
  · assumption
  · rename_i h0
    rw [if_neg h0] at h
    simp only at h ⊢
    rw [h]
    simp [Body.checkEOF]

private theorem bytesLoop_eof (grow : Nat → Nat → Nat) (P : ChunkedParser σ) (S : Slicing P) : ∀ (fuel : Nat) (st : St σ) (sl : Slice),
    (bytesLoop grow P S fuel st).1.1 = some sl → (bytesLoop grow P S fuel st).2.body.eof = true
  | 0, st, sl, h => by simp [bytesLoop] at h
  | fuel + 1, st, sl, h => by
    have he := retrieve_eof P S st
    unfold bytesLoop at h ⊢
    generalize retrieve P S st = x at h he ⊢
    obtain ⟨⟨p, e⟩, st'⟩ := x
    simp only at h he ⊢
    cases e with
    | none => exact bytesLoop_eof grow P S fuel _ sl h
    | some e =>
      cases e with
      | eof => exact he rfl
      | _ => simp at h

private theorem bytes_eof (grow : Nat → Nat → Nat) (P : ChunkedParser σ) (S : Slicing P) (st : St σ) (sl : Slice)
    (h : (bytes grow P S st).1.1 = some sl) : (bytes grow P S st).2.body.eof = true := by
  unfold bytes at h ⊢
  split
  · assumption
  · rename_i h0
    rw [if_neg h0] at h
    exact bytesLoop_eof grow P S _ _ sl h

private theorem call_at_eof (grow : Nat → Nat → Nat) (P : ChunkedParser σ) (S : Slicing P) (st : St σ) (k : Body.Call)
    (h : st.body.eof = true) : (call grow P S st k).2.body.eof = true ∧ (call grow P S st k).2.mem = st.mem := by
  have hr := retrieve_at_eof P S st h
  cases k with
  | retrieve => simp [call, hr, h]
  | bytes => simp [call, bytes, h]
  | string => simp [call, bytes, h]
  | callback cb => simp [call, callback, hr, h]
  | discard => simp [call, discard, h]
  | read n =>
    simp only [call, read]
    split
    · simp [hr, h]
    · simp [h]

private theorem calls_at_eof (grow : Nat → Nat → Nat) (P : ChunkedParser σ) (S : Slicing P) : ∀ (ks : List Body.Call) (st : St σ),
    st.body.eof = true → (calls grow P S ks st).2.mem = st.mem
  | [], _, _ => rfl
  | k :: ks, st, h => by
    obtain ⟨h1, h2⟩ := call_at_eof grow P S st k h
    simp only [calls]
    rw [calls_at_eof grow P S ks _ h1, h2]

/-- **C84 (part).** What Bytes and String gave keeps its content, whatever else is called on the body of the same request - while they
share memory with the body. -/
theorem C84_kept_partial (grow : Nat → Nat → Nat) (P : ChunkedParser σ) (S : Slicing P) (st : St σ) (sl : Slice) (ks : List Body.Call)
    (given : (bytes grow P S st).1.1 = some sl) :
    (calls grow P S ks (bytes grow P S st).2).2.mem.read sl = (bytes grow P S st).2.mem.read sl := by
  rw [calls_at_eof grow P S ks _ (bytes_eof grow P S st sl given)]

end

/-! A connection with two requests: the head of the first one in one piece with the beginning of its body, further pieces, and a second
request. For short, the heads are just letters. -/

private def pieces : List (Bytes × Option GoErr) := [(b!"HEADabc", none), (b!"def", none), (b!"ghiHE", none), (b!"ADxyz", none)]

private def first : Request := { ContentLength := 9 }
private def second : Request := { ContentLength := 3 }

private def decent : List Step :=
  [.head 4, .request first, .call (.read 2), .call (.read 2), .call .bytes, .call .discard, .head 2, .head 2, .request second, .call (.read 2), .call .discard]

example : Fits 16 pieces ∧ Allocatable 1000 decent ∧ Tidy .nothing decent (valueRun refParser 1000 decent (Body.new refParser 100, { conn := pieces })) ∧
    (run tight refParser refSlicing decent (St.new refParser 100 16 pieces)).1 =
      [.piece b!"HEADabc" none, .done none, .piece b!"ab" none, .piece b!"c" none, .whole (some b!"defghi") none, .done none, .piece b!"HE" none,
        .piece b!"ADxyz" none, .done none, .piece b!"xy" none, .done none] := by
  refine ⟨by unfold Fits; decide +kernel, ?_, ?_, by decide +kernel⟩
  · intro r hr
    simp [decent] at hr
    rcases hr with rfl | rfl <;> decide
  · have : valueRun refParser 1000 decent (Body.new refParser 100, { conn := pieces }) =
        [.piece b!"HEADabc" none, .done none, .piece b!"ab" none, .piece b!"c" none, .whole (some b!"defghi") none, .done none, .piece b!"HE" none,
        .piece b!"ADxyz" none, .done none, .piece b!"xy" none, .done none] := by decide +kernel
    rw [this]
    simp [decent, Tidy, drained]

/-- **C84** fails for Read mixed with other methods: three bytes of a body have arrived, one of them is read; Retrieve waits for the next
piece and gives it, rightly; the next Read gives `ef` of this piece a second time, instead of `bc`, which is lost. -/
theorem C84_mixing_violation :
    (run tight refParser refSlicing [.head 4, .request { ContentLength := 6 }, .call (.read 1), .call .retrieve, .call (.read 2)]
      (St.new refParser 100 16 [(b!"HEAD", none), (b!"abc", none), (b!"def", none)])).1 =
      [.piece b!"HEAD" none, .done none, .piece b!"a" none, .piece b!"def" (some .eof), .piece b!"ef" none] ∧
    valueRun refParser 1000 [.head 4, .request { ContentLength := 6 }, .call (.read 1), .call .retrieve, .call (.read 2)]
      (Body.new refParser 100, { conn := [(b!"HEAD", none), (b!"abc", none), (b!"def", none)] }) =
      [.piece b!"HEAD" none, .done none, .piece b!"a" none, .piece b!"def" (some .eof), .piece b!"bc" none] := by
  constructor <;> decide +kernel

/-- **C84** fails for strings which are kept: the string given by String for the first request of a connection is another one after String
was called for the second. -/
theorem C84_string_violation :
    let start := (run tight refParser refSlicing [.head 4, .request { ContentLength := 6 }]
      (St.new refParser 100 16 [(b!"HEAD", none), (b!"secret", none), (b!"HEAD", none), (b!"public", none)])).2
    let got := bytes tight refParser refSlicing start
    let later := (run tight refParser refSlicing [.call .discard, .head 4, .request { ContentLength := 6 }, .call .string] got.2).2
    got.1.1.map got.2.mem.read = some b!"secret" ∧ got.1.1.map later.mem.read = some b!"public" := by
  decide +kernel

end Indigo.BodyMem
