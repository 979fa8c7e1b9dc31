/-
C54: internal maps behave as maps.
-/
import Verif.Proofs.Maps

namespace Indigo.Props

/-- The children table after a history of additions. -/
def arrMapAfter {α : Type} (h : List (Bytes × α)) : ArrMap α := h.foldl (fun a e => a.add e.1 e.2) {}

/-- The length-bucketed map after a history of insertions. -/
def strLenMapAfter {α : Type} (h : List (Bytes × α)) : StrLenMap α := h.foldl (fun m e => m.insert e.1 e.2) {}

/-- A plain map after a history of assignments: the last value assigned to the key. -/
def plainMap {α : Type} (h : List (Bytes × α)) (k : Bytes) : Option α :=
  (h.reverse.find? (fun e => e.1 = k)).map (·.2)

/-- The first value inserted for the key. -/
def firstInserted {α : Type} (h : List (Bytes × α)) (k : Bytes) : Option α :=
  (h.find? (fun e => e.1 = k)).map (·.2)

/-- C54: after any history of insertions, the length-bucketed map returns the first value inserted for the key
(which its documentation promises), and nothing for a key that has not been inserted. -/
theorem C54_strlenmap {α : Type} (h : List (Bytes × α)) (k : Bytes) :
    (strLenMapAfter h).get k = firstInserted h k := by
  rw [StrLenMap.get_eq, strLenMapAfter, StrLenMap.bucket_foldl]
  simp only [firstOf, firstInserted, List.find?_filter]
  congr 1
  induction h with
  | nil => rfl
  | cons e h ih =>
    simp only [List.find?_cons]
    by_cases hk : e.1 = k
    · simp [hk]
    · simp [hk]; simpa using ih

/-- C54, the part that holds for the children table: it returns what a plain map would, for every history of
additions of distinct keys, of any length, before and after the switch to the hash map. (The routing tree adds a
key only after a failed lookup.) -/
theorem C54_arrmap_partial {α : Type} (h : List (Bytes × α)) (hd : (h.map (·.1)).Nodup) (k : Bytes) :
    (arrMapAfter h).lookup k = plainMap h k := by
  have hp : plainMap h k = lastOf h k := rfl
  obtain ⟨h1, h2⟩ := ArrMap.foldl_add h
  rw [hp]
  by_cases hl : h.length ≤ 30
  · obtain ⟨a1, a2⟩ := h1 hl
    rw [arrMapAfter, ArrMap.lookup, a1, lastOf_eq_firstOf h hd, Bool.not_false, if_pos rfl, a2]
    exact ArrMap.scan_eq k h
  · obtain ⟨a1, a2⟩ := h2 (by omega)
    rw [arrMapAfter, ArrMap.lookup, a1, Bool.not_true, if_neg (by simp), a2]
    exact get?_foldl_set h k

example : ([(b!"a", 1), (b!"b", 2)].map (·.1)).Nodup ∧
    (arrMapAfter [(b!"a", 1), (b!"b", 2)]).lookup b!"b" = some 2 := by decide

/-- C54: what it returns for arbitrary histories: the first value while there are at most 30 entries (counted with
repetitions), the last one afterwards. -/
theorem C54_arrmap_exact_partial {α : Type} (h : List (Bytes × α)) (k : Bytes) :
    (arrMapAfter h).lookup k = if h.length ≤ 30 then firstInserted h k else plainMap h k := by
  obtain ⟨h1, h2⟩ := ArrMap.foldl_add h
  by_cases hl : h.length ≤ 30
  · obtain ⟨a1, a2⟩ := h1 hl
    rw [arrMapAfter, ArrMap.lookup, a1, if_pos hl, Bool.not_false, if_pos rfl, a2]
    exact ArrMap.scan_eq k h
  · obtain ⟨a1, a2⟩ := h2 (by omega)
    rw [arrMapAfter, ArrMap.lookup, a1, if_neg hl, Bool.not_true, if_neg (by simp), a2]
    exact get?_foldl_set h k

/-- C54 is false for repeated keys: the small table keeps returning the old value. -/
theorem C54_arrmap_repeated_violation :
    ∃ (h : List (Bytes × Nat)) (k : Bytes), (arrMapAfter h).lookup k ≠ plainMap h k :=
  ⟨[(b!"a", 1), (b!"a", 2)], b!"a", by decide⟩

end Indigo.Props
