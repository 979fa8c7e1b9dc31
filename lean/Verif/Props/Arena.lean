/-
C86: the strings of a request keep their contents for the time of the request, and not longer.
-/
import Verif.Spec.Arena
import Verif.Proofs.Memory

namespace Indigo.Arena
open ResponseMem (Mem Slice Ref append overwrite Valid append_read array_store overwrite_length)

private def Alive (m : Mem) : Ref → Prop
  | .app i => i < m.app.length
  | .own i => i < m.own.length

private theorem array_store_ne (m : Mem) (r r' : Ref) (b : Bytes) (h : r ≠ r') : (m.store r b).array r' = m.array r' := by
  cases r <;> cases r' <;> simp_all [Mem.array, Mem.store]

private theorem alive_store (m : Mem) (r r' : Ref) (b : Bytes) (h : Alive m r') : Alive (m.store r b) r' := by
  cases r <;> cases r' <;> simp_all [Alive, Mem.store]

private theorem overwrite_before (a : Bytes) (pos : Nat) (b : Bytes) (off len : Nat) (h : off + len ≤ pos) (hp : pos ≤ a.length) :
    ((overwrite a pos b).drop off).take len = (a.drop off).take len := by
  rw [overwrite, List.append_assoc, List.drop_append, List.take_append, List.length_drop, List.length_take, Nat.min_eq_left hp,
    show len - (pos - off) = 0 by omega, List.take_zero, List.append_nil, List.drop_take, List.take_take, Nat.min_eq_left (by omega)]

private theorem overwrite_after (a : Bytes) (pos : Nat) (b : Bytes) (off len : Nat) (h : pos + b.length ≤ off) (hp : pos + b.length ≤ a.length) :
    ((overwrite a pos b).drop off).take len = (a.drop off).take len := by
  have : (a.take pos ++ b).length = pos + b.length := by simp; omega
  rw [overwrite, List.drop_append, List.drop_of_length_le (by omega), this, List.nil_append, List.drop_drop]
  congr 2
  omega

private theorem overwrite_at (a : Bytes) (pos : Nat) (b : Bytes) (hp : pos + b.length ≤ a.length) :
    ((overwrite a pos b).drop pos).take b.length = b := by
  have h1 : (a.take pos).length = pos := by simp; omega
  rw [overwrite, List.append_assoc, List.drop_append, List.drop_of_length_le (by omega), h1]
  simp

/-- What holds while a head is parsed. -/
private structure Inv (st : St) (v : Values) : Prop where
  valid : Valid st.mem st.memory
  alive : Alive st.mem st.memory.ref
  le : st.start ≤ st.memory.len
  len : v.buf.mem.length = st.memory.len
  start : v.buf.start = st.start
  max : v.buf.max = st.max
  cur : (st.mem.read st.memory).drop st.start = v.buf.mem.drop v.buf.start
  strings : st.strings.map st.mem.read = v.strings
  inside : ∀ s ∈ st.strings, Alive st.mem s.ref ∧ s.off + s.len ≤ (st.mem.array s.ref).length ∧
    (s.ref = st.memory.ref → s.off + s.len ≤ st.memory.off + st.start)
  apart : st.strings.Pairwise fun a b => a.ref = b.ref → a.off + a.len ≤ b.off

private theorem read_length {m : Mem} {s : Slice} (h : s.off + s.len ≤ (m.array s.ref).length) : (m.read s).length = s.len := by
  simp [Mem.read]; omega

private theorem append_inv (grow : Nat → Nat → Nat) {st : St} {v : Values} (h : Inv st v) (b : Bytes) :
    Inv (step grow st (.append b)) (v.step (.append b)) := by
  simp only [step, Values.step, Buf.append]
  rw [h.len, h.max]
  split
  · exact h
  obtain ⟨a1, a2⟩ := append_read grow st.mem st.memory b h.valid
  have hl : st.memory.off + st.memory.len ≤ (st.mem.array st.memory.ref).length := by have := h.valid.len; have := h.valid.inside; omega
  have hrl := read_length hl
  -- what the strings see
  have key : (∀ s ∈ st.strings, Alive (append grow st.mem st.memory b).1 s.ref ∧ s.off + s.len ≤ ((append grow st.mem st.memory b).1.array s.ref).length ∧
      (append grow st.mem st.memory b).1.read s = st.mem.read s ∧
      (s.ref = (append grow st.mem st.memory b).2.ref → s.off + s.len ≤ (append grow st.mem st.memory b).2.off + st.start)) ∧
      Alive (append grow st.mem st.memory b).1 (append grow st.mem st.memory b).2.ref ∧
      (append grow st.mem st.memory b).2.len = st.memory.len + b.length := by
    unfold append
    split
    · rename_i hc
      have hol := overwrite_length (st.mem.array st.memory.ref) (st.memory.off + st.memory.len) b (by have := h.valid.inside; omega)
      refine ⟨fun s hs => ?_, alive_store _ _ _ _ h.alive, rfl⟩
      obtain ⟨i1, i2, i3⟩ := h.inside s hs
      refine ⟨alive_store _ _ _ _ i1, ?_, ?_, i3⟩
      · by_cases hr : s.ref = st.memory.ref
        · rw [hr, array_store _ _ _ hol, hol, ← hr]; exact i2
        · rw [array_store_ne _ _ _ _ (Ne.symm hr)]; exact i2
      · by_cases hr : s.ref = st.memory.ref
        · simp only [Mem.read]
          rw [hr, array_store _ _ _ hol]
          exact overwrite_before _ _ _ _ _ (by have := i3 hr; have := h.le; omega) hl
        · simp only [Mem.read]
          rw [array_store_ne _ _ _ _ (Ne.symm hr)]
    · refine ⟨fun s hs => ?_, by simp [Alive], rfl⟩
      obtain ⟨i1, i2, i3⟩ := h.inside s hs
      have harr : ∀ x : Bytes, ({ st.mem with own := st.mem.own ++ [x] } : Mem).array s.ref = st.mem.array s.ref := by
        intro x
        cases hr : s.ref with
        | app i => rfl
        | own i =>
          rw [hr] at i1
          simp only [Mem.array]
          rw [List.getElem?_append_left i1]
      refine ⟨?_, ?_, ?_, ?_⟩
      · cases hr : s.ref with
        | app i => rw [hr] at i1; exact i1
        | own i => rw [hr] at i1; simp only [Alive, List.length_append] at i1 ⊢; omega
      · rw [harr]; exact i2
      · simp only [Mem.read]; rw [harr]
      · intro hr
        rw [hr] at i1
        simp [Alive] at i1
  obtain ⟨k1, k2, k3⟩ := key
  generalize append grow st.mem st.memory b = r at a1 a2 k1 k2 k3
  refine ⟨a1, k2, ?_, ?_, h.start, rfl, ?_, ?_, ?_, h.apart⟩
  · simp only; rw [k3]; have := h.le; omega
  · simp only [List.length_append]; rw [k3, h.len]
  · simp only
    rw [a2, List.drop_append_of_le_length (by rw [hrl]; exact h.le), h.cur, List.drop_append_of_le_length (by rw [h.len, h.start]; exact h.le)]
  · rw [← h.strings]
    exact List.map_congr_left fun s hs => (k1 s hs).2.2.1
  · intro s hs
    exact ⟨(k1 s hs).1, (k1 s hs).2.1, (k1 s hs).2.2.2⟩

private theorem finish_inv (grow : Nat → Nat → Nat) {st : St} {v : Values} (h : Inv st v) :
    Inv (step grow st .finish) (v.step .finish) := by
  have hin := h.valid.inside
  have hvl := h.valid.len
  have hle := h.le
  have hread : st.mem.read ⟨st.memory.ref, st.memory.off + st.start, st.memory.len - st.start, st.memory.cap - st.start⟩ =
      v.buf.mem.drop v.buf.start := by
    rw [← h.cur]
    simp only [Mem.read]
    rw [List.drop_take, List.drop_drop]
  refine ⟨h.valid, h.alive, Nat.le_refl _, h.len, h.len, h.max, ?_, ?_, ?_, ?_⟩
  · simp only [step, Values.step, Buf.finish, List.drop_length]
    refine List.drop_of_length_le ?_
    rw [read_length (by omega)]
    exact Nat.le_refl _
  · simp only [step, Values.step, Buf.finish, Buf.seg, List.map_append, List.map_cons, List.map_nil]
    rw [h.strings, hread]
  · intro s hs
    simp only [step, List.mem_append, List.mem_singleton] at hs
    rcases hs with hs | rfl
    · obtain ⟨i1, i2, i3⟩ := h.inside s hs
      exact ⟨i1, i2, fun hr => by have := i3 hr; simp only [step]; omega⟩
    · refine ⟨h.alive, ?_, fun _ => ?_⟩ <;> simp only [step] <;> omega
  · simp only [step]
    refine List.pairwise_append.2 ⟨h.apart, List.pairwise_singleton _ _, ?_⟩
    intro a ha b hb hr
    simp only [List.mem_singleton] at hb
    subst hb
    exact (h.inside a ha).2.2 hr

private theorem rewrite_inv (grow : Nat → Nat → Nat) {st : St} {v : Values} (h : Inv st v) (i : Nat) (b : Bytes) :
    Inv (step grow st (.rewrite i b)) (v.step (.rewrite i b)) := by
  simp only [step, Values.step]
  have hv : v.strings[i]?.map List.length = st.strings[i]?.map Slice.len := by
    rw [← h.strings, List.getElem?_map, Option.map_map]
    cases hi : st.strings[i]? with
    | none => rfl
    | some s =>
      have := (h.inside s (List.mem_of_getElem? hi)).2.1
      simp [read_length this]
  rw [hv]
  cases hi : st.strings[i]? with
  | none => simpa using h
  | some s =>
    simp only [Option.map_some, Option.some.injEq]
    rcases Decidable.em (b.length = s.len) with hb | hb
    case inr =>
      rw [if_neg hb, if_neg (fun e => hb e.symm)]
      exact h
    rw [if_pos hb, if_pos hb.symm]
    obtain ⟨s1, s2, s3⟩ := h.inside s (List.mem_of_getElem? hi)
    have hol := overwrite_length (st.mem.array s.ref) s.off b (by omega)
    -- reading elsewhere
    have other : ∀ x : Slice, (x.ref = s.ref → x.off + x.len ≤ s.off ∨ s.off + s.len ≤ x.off) →
        (st.mem.store s.ref (overwrite (st.mem.array s.ref) s.off b)).read x = st.mem.read x := by
      intro x hx
      simp only [Mem.read]
      by_cases hr : x.ref = s.ref
      · rw [hr, array_store _ _ _ hol]
        rcases hx hr with hx | hx
        · exact overwrite_before _ _ _ _ _ hx (by omega)
        · exact overwrite_after _ _ _ _ _ (by omega) (by omega)
      · rw [array_store_ne _ _ _ _ (Ne.symm hr)]
    have lens : ∀ r, ((st.mem.store s.ref (overwrite (st.mem.array s.ref) s.off b)).array r).length = (st.mem.array r).length := by
      intro r
      by_cases hr : r = s.ref
      · rw [hr, array_store _ _ _ hol, hol]
      · rw [array_store_ne _ _ _ _ (Ne.symm hr)]
    refine ⟨⟨h.valid.len, ?_⟩, alive_store _ _ _ _ h.alive, h.le, h.len, h.start, h.max, ?_, ?_, ?_, h.apart⟩
    · simp only; rw [lens]; exact h.valid.inside
    · simp only
      rw [← h.cur]
      have hd : ∀ m : Mem, (m.read st.memory).drop st.start = m.read ⟨st.memory.ref, st.memory.off + st.start, st.memory.len - st.start, 0⟩ := by
        intro m
        simp only [Mem.read]
        rw [List.drop_take, List.drop_drop]
      rw [hd, hd, other]
      intro hr
      exact .inr (s3 hr.symm)
    · simp only
      rw [← h.strings]
      apply List.ext_getElem?
      intro j
      rw [List.getElem?_map, List.getElem?_set, List.getElem?_map]
      by_cases hij : i = j
      · subst hij
        rw [hi]
        have : i < (st.strings.map st.mem.read).length := by
          rw [List.length_map]
          exact (List.getElem?_eq_some_iff.1 hi).1
        simp only [Option.map_some, this, if_true]
        congr 1
        simp only [Mem.read]
        rw [array_store _ _ _ hol, ← hb]
        exact overwrite_at _ _ _ (by omega)
      · rw [if_neg hij]
        cases hj : st.strings[j]? with
        | none => rfl
        | some x =>
          simp only [Option.map_some]
          congr 1
          refine other x fun hr => ?_
          obtain ⟨hil, hie⟩ := List.getElem?_eq_some_iff.1 hi
          obtain ⟨hjl, hje⟩ := List.getElem?_eq_some_iff.1 hj
          have hp := List.pairwise_iff_getElem.1 h.apart
          rcases Nat.lt_or_gt_of_ne hij with hlt | hlt
          · have := hp i j hil hjl hlt (by rw [hie, hje]; exact hr.symm)
            rw [hie, hje] at this
            exact .inr this
          · have := hp j i hjl hil hlt (by rw [hie, hje]; exact hr)
            rw [hie, hje] at this
            exact .inl this
    · intro x hx
      obtain ⟨i1, i2, i3⟩ := h.inside x hx
      exact ⟨alive_store _ _ _ _ i1, by simp only; rw [lens]; exact i2, i3⟩

private theorem run_inv (grow : Nat → Nat → Nat) : ∀ (ops : List Op) (st : St) (v : Values), Inv st v → Inv (run grow st ops) (v.run ops)
  | [], _, _, h => h
  | op :: ops, st, v, h => by
    refine run_inv grow ops _ _ ?_
    cases op with
    | append b => exact append_inv grow h b
    | finish => exact finish_inv grow h
    | rewrite i b => exact rewrite_inv grow h i b

/-- A buffer which is empty: a new one, or one which was cleared, whatever happened before. -/
private theorem cleared_inv {st : St} {v : Values} (h : Inv st v) : Inv st.clear { buf := v.buf.clear } := by
  refine ⟨⟨Nat.zero_le _, h.valid.inside⟩, h.alive, Nat.le_refl _, rfl, rfl, h.max, ?_, rfl, fun s hs => (by cases hs), List.Pairwise.nil⟩
  simp [St.clear, Buf.clear, Mem.read]

private theorem new_inv (m : Mem) (size max : Nat) : Inv (St.new m size max) { buf := { max } } := by
  refine ⟨⟨Nat.zero_le _, ?_⟩, ?_, Nat.le_refl _, rfl, rfl, rfl, ?_, rfl, fun s hs => (by cases hs), List.Pairwise.nil⟩
  · simp [St.new, Mem.array]
  · simp [St.new, Alive]
  · simp [St.new, Mem.read]

private theorem heads_inv (grow : Nat → Nat → Nat) : ∀ (reqs : List (List Op)) (st : St) (v : Values), Inv st v → v.strings = [] → v.buf = { max := v.buf.max } →
    ∃ v', Inv (heads grow st reqs) v' ∧ v'.strings = [] ∧ v'.buf = { max := v.buf.max }
  | [], st, v, h, e, e' => ⟨v, h, e, e'⟩
  | ops :: reqs, st, v, h, _, e' => by
    have hr := run_inv grow ops st v h
    have hm : (v.run ops).buf.max = v.buf.max := by rw [hr.max, h.max]; clear hr e' h; exact run_max grow ops st
    obtain ⟨v', i1, i2, i3⟩ := heads_inv grow reqs _ _ (cleared_inv hr) rfl rfl
    exact ⟨v', i1, i2, by rw [i3]; simp [Buf.clear, hm]⟩
where
  run_max (grow : Nat → Nat → Nat) : ∀ (ops : List Op) (st : St), (run grow st ops).max = st.max
    | [], _ => rfl
    | op :: ops, st => by
      have : (step grow st op).max = st.max := by
        cases op with
        | append b => simp only [step]; split <;> rfl
        | finish => rfl
        | rewrite i b =>
          simp only [step]
          split
          · split <;> rfl
          · rfl
      change (run grow (step grow st op) ops).max = _
      rw [run_max grow ops, this]

/-- **C86** (partial: for the time of the request). On any connection, whatever requests there were before (`reqs`) and however their
heads came in pieces, while the head of a request is parsed and afterwards, when its handler runs and the buffer is cleared already,
each string of the request reads as what was received, or as what it was decoded to (`Values.run`, where strings are values): no later
piece, no growth of the buffer and no decoding of another string in place changes it. -/
theorem C86_during_request_partial (grow : Nat → Nat → Nat) (m : Mem) (size max : Nat) (reqs : List (List Op)) (ops : List Op) :
    ((run grow (heads grow (St.new m size max) reqs) ops).strings.map
      (run grow (heads grow (St.new m size max) reqs) ops).clear.mem.read) = (Values.run { buf := { max } } ops).strings := by
  obtain ⟨v, h1, h2, h3⟩ := heads_inv grow reqs _ _ (new_inv m size max) rfl rfl
  have hv : v = { buf := { max } } := by
    cases v
    simp only at h2 h3
    rw [h2, h3]
  rw [hv] at h1
  exact (run_inv grow ops _ _ h1).strings

/-- Two requests; the second one makes the buffer grow, and its path is decoded in place: `/%41` and, in the query, `b`. -/
example : (run (fun _ n => 2 * n) (heads (fun _ n => 2 * n) (St.new {} 4 100) [[.append [71, 69, 84], .finish]])
    [.append [71, 69], .append [84], .finish, .append [47, 37, 52], .append [49], .finish, .append [98], .finish, .rewrite 1 [47, 65, 52, 49]]).strings.map
    (run (fun _ n => 2 * n) (heads (fun _ n => 2 * n) (St.new {} 4 100) [[.append [71, 69, 84], .finish]])
    [.append [71, 69], .append [84], .finish, .append [47, 37, 52], .append [49], .finish, .append [98], .finish, .rewrite 1 [47, 65, 52, 49]]).mem.read =
    [[71, 69, 84], [47, 65, 52, 49], [98]] := by decide +kernel

private theorem append_fits (grow : Nat → Nat → Nat) (st : St) (b : Bytes) (hc : st.memory.len + b.length ≤ st.memory.cap)
    (hm : st.memory.len + b.length ≤ st.max) : step grow st (.append b) =
      { st with mem := st.mem.store st.memory.ref (overwrite (st.mem.array st.memory.ref) (st.memory.off + st.memory.len) b),
                memory := { st.memory with len := st.memory.len + b.length } } := by
  simp only [step, append]
  rw [if_neg (by omega), if_pos hc]

private theorem pair_strings (grow : Nat → Nat → Nat) (st : St) (k v : Bytes) (hs : st.strings = []) (h0 : st.start = 0) (hl : st.memory.len = 0)
    (ho : st.memory.off = 0) (hc : k.length + v.length ≤ st.memory.cap) (hm : k.length + v.length ≤ st.max) :
    (run grow st [.append k, .finish, .append v, .finish]).strings =
      [⟨st.memory.ref, 0, k.length, st.memory.cap⟩, ⟨st.memory.ref, k.length, v.length, st.memory.cap - k.length⟩] ∧
    (run grow st [.append k, .finish, .append v, .finish]).memory = { st.memory with len := k.length + v.length } ∧
    (run grow st [.append k, .finish, .append v, .finish]).max = st.max := by
  obtain ⟨mem, ⟨ref, off, len, cap⟩, start, mx, strings⟩ := st
  simp only at hs h0 hl ho hc hm
  subst hs h0 hl ho
  simp only [run, List.foldl_cons, List.foldl_nil]
  rw [append_fits _ _ k (show 0 + k.length ≤ cap by omega) (show 0 + k.length ≤ mx by omega)]
  simp only [step.eq_2]
  rw [append_fits]
  · simp
  · simp; omega
  · simp; omega

/-- **C86**, what fails: a clone of the headers (documented as "a deep copy, which may be used later or stored somewhere safely") of a
request with a header `k: v` reads as `k': v'` after the next request on the connection came with such a header: for all names and
values of the same lengths which fit the initial size of the buffer. The handler sees the right header, the one who stored the clone does not. -/
theorem C86_clone_violation (grow : Nat → Nat → Nat) (m : Mem) (size max : Nat) (k v k' v' : Bytes) (hk : k'.length = k.length)
    (hv : v'.length = v.length) (hc : k.length + v.length ≤ size) (hm : k.length + v.length ≤ max) :
    ∃ a b, (run grow (St.new m size max) [.append k, .finish, .append v, .finish]).strings = [a, b] ∧
      contents (run grow (St.new m size max) [.append k, .finish, .append v, .finish]).clear.mem (clone [(a, b)]) = [(k, v)] ∧
      contents (run grow (run grow (St.new m size max) [.append k, .finish, .append v, .finish]).clear [.append k', .finish, .append v', .finish]).mem
        (clone [(a, b)]) = [(k', v')] := by
  obtain ⟨s1, s2, s3⟩ := pair_strings grow (St.new m size max) k v rfl rfl rfl rfl hc hm
  have r1 := C86_during_request_partial grow m size max [] [.append k, .finish, .append v, .finish]
  have r2 := C86_during_request_partial grow m size max [[.append k, .finish, .append v, .finish]] [.append k', .finish, .append v', .finish]
  obtain ⟨t1, _, _⟩ := pair_strings grow (run grow (St.new m size max) [.append k, .finish, .append v, .finish]).clear k' v' rfl rfl rfl
    (by simp only [St.clear]; rw [s2]; rfl) (by simp only [St.clear]; rw [s2, hk, hv]; exact hc) (by simp only [St.clear]; rw [s3, hk, hv]; exact hm)
  have val : ∀ x y : Bytes, x.length + y.length ≤ max → (Values.run { buf := { max } } [.append x, .finish, .append y, .finish]).strings = [x, y] := by
    intro x y h
    have g1 : ¬ max < x.length := by omega
    have g2 : ¬ max < x.length + y.length := by omega
    simp [Values.run, Values.step, Buf.append, Buf.finish, Buf.seg, g1, g2]
  rw [val _ _ hm] at r1
  rw [val _ _ (by omega)] at r2
  simp only [heads, List.foldl_nil, List.foldl_cons] at r1 r2
  have c2 : (run grow (St.new m size max) [.append k, .finish, .append v, .finish]).clear.memory = (St.new m size max).memory := by
    simp only [St.clear]; rw [s2]; rfl
  rw [c2, hk, hv] at t1
  rw [s1] at r1
  rw [t1] at r2
  have e : ∀ a b c d : Bytes, [a, b] = [c, d] → [(a, b)] = [(c, d)] := by
    intro a b c d h
    simp only [List.cons.injEq, and_true] at h
    rw [h.1, h.2]
  exact ⟨_, _, s1, e _ _ _ _ r1, e _ _ _ _ r2⟩

/-- `id: alice`, and the clone becomes `id: mallo`. -/
example : ∃ a b, (run (fun _ n => n) (St.new {} 64 4096) [.append [105, 100], .finish, .append [97, 108, 105, 99, 101], .finish]).strings = [a, b] ∧
    contents (run (fun _ n => n) (St.new {} 64 4096) [.append [105, 100], .finish, .append [97, 108, 105, 99, 101], .finish]).clear.mem (clone [(a, b)]) =
      [([105, 100], [97, 108, 105, 99, 101])] ∧
    contents (run (fun _ n => n) (run (fun _ n => n) (St.new {} 64 4096) [.append [105, 100], .finish, .append [97, 108, 105, 99, 101], .finish]).clear
      [.append [105, 100], .finish, .append [109, 97, 108, 108, 111], .finish]).mem (clone [(a, b)]) = [([105, 100], [109, 97, 108, 108, 111])] :=
  C86_clone_violation _ {} 64 4096 [105, 100] [97, 108, 105, 99, 101] [105, 100] [109, 97, 108, 108, 111] rfl rfl (by decide) (by decide)

end Indigo.Arena
