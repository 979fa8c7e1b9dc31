/-
Property C14: the header storage is a case-insensitive ordered multimap.
-/
import Verif.Proofs.Storage

namespace Indigo.Props
open Indigo.Spec

/-- C14, for every `strcomp.EqualFold` fulfilling its contract: after any history of additions, clearings
and interleaved reads, all read operations answer as the list-of-entries specification. -/
theorem C14_storage_refines_multimap (F : Fold) (ops : List MOp) (k : Bytes) :
    let s := storageRun F ops
    let es := entries ops
    s.get F k = firstValue F.eq k es ∧
    (s.values F k).1 = allValues F.eq k es ∧
    s.has F k = es.any (fun e => F.eq e.1 k) ∧
    (s.keys F).1 = firstKeys F.eq es ∧
    s.len = es.length ∧
    (∀ dflt, s.valueOr F k dflt = (firstValue F.eq k es).getD dflt) ∧
    s.clone = s := by
  have hp := storageRun_pairs F ops
  simp only
  refine ⟨?_, ?_, ?_, ?_, ?_, ?_, rfl⟩
  · rw [Storage.get, hp, getLoop_spec]
  · simp only [Storage.values, hp]
    rw [valuesLoop_spec]; simp
  · rw [Storage.has, hp, hasLoop_spec]
  · simp only [Storage.keys, hp]
    have := keysLoop_acc F (entries ops) []
    simpa [firstKeys] using this
  · rw [Storage.len, hp]; simp
  · intro dflt
    rw [Storage.valueOr, Storage.get, hp, getLoop_spec]
    cases firstValue F.eq k (entries ops) <;> rfl

/-- C14 in terms of letter case: when all keys consist of letters, digits and `-`, the reads are those of a
multimap whose keys are compared up to ASCII case. -/
theorem C14_case_insensitive (F : Fold) (ops : List MOp) (k : Bytes)
    (hk : ∀ c ∈ k, isPlainTok c = true)
    (hes : ∀ e ∈ entries ops, ∀ c ∈ e.1, isPlainTok c = true) :
    let s := storageRun F ops
    let es := entries ops
    s.get F k = firstValue sameName k es ∧
    (s.values F k).1 = allValues sameName k es ∧
    s.has F k = es.any (fun e => sameName e.1 k) ∧
    (s.keys F).1 = firstKeys sameName es := by
  have h := C14_storage_refines_multimap F ops k
  simp only at h ⊢
  have hsame : ∀ a b : Bytes, (∀ c ∈ a, isPlainTok c = true) → (∀ c ∈ b, isPlainTok c = true) →
      F.eq a b = sameName a b := by
    intro a b ha hb
    rw [Bool.eq_iff_iff, F.eq_iff_lower ha hb]; simp [sameName]
  have hf : ∀ e ∈ entries ops, F.eq e.1 k = sameName e.1 k := fun e he => hsame _ _ (hes e he) hk
  refine ⟨?_, ?_, ?_, ?_⟩
  · rw [h.1]; unfold firstValue; congr 1
    generalize entries ops = es at hf
    induction es with
    | nil => rfl
    | cons e es ih =>
      rw [List.find?_cons, List.find?_cons, hf e (by simp), ih (fun x hx => hf x (by simp [hx]))]
  · rw [h.2.1]; unfold allValues; rw [List.filter_congr hf]
  · rw [h.2.2.1]
    generalize entries ops = es at hf
    induction es with
    | nil => rfl
    | cons e es ih =>
      rw [List.any_cons, List.any_cons, hf e (by simp), ih (fun x hx => hf x (by simp [hx]))]
  · rw [h.2.2.2.1]; unfold firstKeys; congr 1
    apply List.filter_congr
    rintro ⟨e, i⟩ hei
    have he : e ∈ entries ops := List.fst_mem_of_mem_zipIdx hei
    congr 1
    have ht : ∀ x ∈ (entries ops).take i, F.eq x.1 e.1 = sameName x.1 e.1 :=
      fun x hx => hsame _ _ (hes x (List.mem_of_mem_take hx)) (hes e he)
    generalize (entries ops).take i = l at ht
    induction l with
    | nil => rfl
    | cons x xs ih =>
      rw [List.any_cons, List.any_cons, ht x (by simp), ih (fun y hy => ht y (by simp [hy]))]

/-- Non-vacuity: a history with case variants, a clear and reads in between. -/
example :
    let ops : List MOp := [.add b!"Old" b!"x", .clear, .add b!"Accept" b!"a", .readKeys,
      .add b!"Host" b!"h", .add b!"ACCEPT" b!"b", .readValues b!"host"]
    let s := storageRun Fold.ascii ops
    (s.values Fold.ascii b!"accept").1 = [b!"a", b!"b"] ∧ (s.keys Fold.ascii).1 = [b!"Accept", b!"Host"] ∧
      s.get Fold.ascii b!"HOST" = some b!"h" ∧ s.get Fold.ascii b!"old" = none := by decide

theorem newFromMap_pairs (m : List (Bytes × List Bytes)) :
    (Storage.newFromMap m).pairs = m.flatMap (fun kv => kv.2.map (fun v => ⟨kv.1, v⟩)) := by
  have inner : ∀ (k : Bytes) (vs : List Bytes) (s : Storage), (vs.foldl (fun s v => s.add k v) s).pairs = s.pairs ++ vs.map (fun v => ⟨k, v⟩) := by
    intro k vs
    induction vs with
    | nil => intro s; simp
    | cons v vs ih => intro s; rw [List.foldl_cons, ih]; simp [Storage.add]
  have outer : ∀ (m : List (Bytes × List Bytes)) (s : Storage),
      (m.foldl (fun s kv => kv.2.foldl (fun s v => s.add kv.1 v) s) s).pairs = s.pairs ++ m.flatMap (fun kv => kv.2.map (fun v => ⟨kv.1, v⟩)) := by
    intro m
    induction m with
    | nil => intro s; simp
    | cons kv m ih => intro s; rw [List.foldl_cons, ih, inner]; simp
  exact outer m Storage.new

/-- **C14.** A storage made from a map, in whichever order (`m`) the keys of the map come: a key of the map, if no other key of the map is the same up to the letter case, has exactly the values it has in the map, in their order; a key which is
the same as none of the map's keys has none; and there are as many pairs as values in the map. -/
theorem C14_from_map (F : Fold) (m : List (Bytes × List Bytes)) (distinct : (m.map (fun kv => kv.1)).Nodup) :
    (∀ k vs k', (k, vs) ∈ m → F.eq k k' = true → (∀ kv ∈ m, F.eq kv.1 k' = true → kv.1 = k) →
      ((Storage.newFromMap m).values F k').1 = vs ∧ (Storage.newFromMap m).get F k' = vs.head? ∧ (Storage.newFromMap m).has F k' = !vs.isEmpty) ∧
    (∀ k', (∀ kv ∈ m, F.eq kv.1 k' = false) → ((Storage.newFromMap m).values F k').1 = [] ∧ (Storage.newFromMap m).get F k' = none ∧
      (Storage.newFromMap m).has F k' = false) ∧
    (Storage.newFromMap m).len = (m.map (fun kv => kv.2.length)).sum := by
  have pairs : (Storage.newFromMap m).pairs = (m.flatMap (fun kv => kv.2.map (fun v => ((kv.1, v) : Entry)))).map (fun e => ⟨e.1, e.2⟩) := by
    rw [newFromMap_pairs, List.map_flatMap]
    simp [Function.comp_def]
  have all : ∀ k', allValues F.eq k' (m.flatMap (fun kv => kv.2.map (fun v => ((kv.1, v) : Entry)))) =
      (m.filter (fun kv => F.eq kv.1 k')).flatMap (fun kv => kv.2) := by
    intro k'
    clear pairs distinct
    induction m with
    | nil => rfl
    | cons kv m ih =>
      unfold allValues at ih ⊢
      rw [List.flatMap_cons, List.filter_append, List.map_append, ih, List.filter_cons]
      cases h : F.eq kv.1 k' <;> simp [List.filter_map, Function.comp_def, h]
  have reads : ∀ k' vs, (m.filter (fun kv => F.eq kv.1 k')).flatMap (fun kv => kv.2) = vs →
      ((Storage.newFromMap m).values F k').1 = vs ∧ (Storage.newFromMap m).get F k' = vs.head? ∧ (Storage.newFromMap m).has F k' = !vs.isEmpty := by
    intro k' vs h
    rw [← all] at h
    refine ⟨?_, ?_, ?_⟩
    · simp only [Storage.values, pairs]
      rw [valuesLoop_spec, h]; simp
    · rw [Storage.get, pairs, getLoop_spec, ← h]
      simp [firstValue, allValues, List.head?_map, List.head?_filter]
    · rw [Storage.has, pairs, hasLoop_spec, ← h]
      generalize m.flatMap (fun kv => kv.2.map (fun v => ((kv.1, v) : Entry))) = es
      unfold allValues
      induction es with
      | nil => rfl
      | cons e es ih => rw [List.any_cons, List.filter_cons]; cases he : F.eq e.1 k' <;> simp [ih]
  refine ⟨?_, ?_, ?_⟩
  · intro k vs k' mem same only
    apply reads
    have one : m.filter (fun kv => F.eq kv.1 k') = [(k, vs)] := by
      clear pairs all reads
      induction m with
      | nil => cases mem
      | cons kv m ih =>
        simp only [List.map_cons, List.nodup_cons] at distinct
        rw [List.filter_cons]
        rcases List.mem_cons.1 mem with rfl | mem
        · rw [if_pos same]
          congr 1
          rw [List.filter_eq_nil_iff]
          intro kv h hk
          have := only kv (by simp [h]) hk
          exact distinct.1 (List.mem_map.2 ⟨kv, h, this⟩)
        · rw [if_neg, ih distinct.2 mem (fun kv h => only kv (by simp [h]))]
          intro hk
          have := only kv (by simp) hk
          exact distinct.1 (List.mem_map.2 ⟨(k, vs), mem, this.symm⟩)
    rw [one]; simp
  · intro k' none
    have : m.filter (fun kv => F.eq kv.1 k') = [] := by
      rw [List.filter_eq_nil_iff]
      intro kv h; simp [none kv h]
    have := reads k' [] (by rw [this]; rfl)
    simpa using this
  · rw [Storage.len, pairs]
    simp [List.length_flatMap]

/-- C14: the values of a map with two keys, one of which is asked for in capitals. -/
example : let m : List (Bytes × List Bytes) := [(b!"Accept", [b!"a", b!"b"]), (b!"Host", [b!"h"])]
    (m.map (fun kv => kv.1)).Nodup ∧ (b!"Accept", [b!"a", b!"b"]) ∈ m ∧ Fold.ascii.eq b!"Accept" b!"ACCEPT" = true ∧
    (∀ kv ∈ m, Fold.ascii.eq kv.1 b!"ACCEPT" = true → kv.1 = b!"Accept") ∧ (∀ kv ∈ m, Fold.ascii.eq kv.1 b!"Date" = false) := by decide

end Indigo.Props
