import Verif.Model.Maps

namespace Indigo

namespace GoMap
variable {κ α : Type} [DecidableEq κ]

theorem get?_set (m : GoMap κ α) (k k' : κ) (v : α) :
    (m.set k v).get? k' = if k = k' then some v else m.get? k' := by
  induction m with
  | nil => simp [set, get?]
  | cons e m ih =>
    obtain ⟨a, b⟩ := e
    simp only [set]
    by_cases h : a = k
    · subst h
      by_cases h' : a = k' <;> simp [get?, h']
    · by_cases h' : a = k'
      · subst h'
        have h2 : ¬ k = a := fun e => h e.symm
        simp [get?, h, h2]
      · simp [get?, h, h', ih]

theorem get?_eq_none (m : GoMap κ α) (k : κ) : m.get? k = none ↔ k ∉ m.map (·.1) := by
  induction m with
  | nil => simp [get?]
  | cons e m ih =>
    obtain ⟨a, b⟩ := e
    by_cases h : a = k
    · simp [get?, h]
    · simp only [get?, h, if_false, ih]; simp; exact fun _ e => h e.symm

theorem keys_set (m : GoMap κ α) (k : κ) (v : α) :
    (m.set k v).map (·.1) = if k ∈ m.map (·.1) then m.map (·.1) else m.map (·.1) ++ [k] := by
  induction m with
  | nil => simp [set]
  | cons e m ih =>
    obtain ⟨a, b⟩ := e
    by_cases h : a = k
    · simp [set, h]
    · have h' : ¬ k = a := fun e => h e.symm
      by_cases hk : k ∈ m.map (·.1)
      · simp only [set, if_neg h, List.map_cons, ih, if_pos hk]
        rw [if_pos (by simp [hk])]
      · simp only [set, if_neg h, List.map_cons, ih, if_neg hk]
        rw [if_neg (by simp [h']; simpa using hk)]; simp

/-- The keys of a map are distinct. -/
theorem nodup_set (m : GoMap κ α) (k : κ) (v : α) (h : (m.map (·.1)).Nodup) : ((m.set k v).map (·.1)).Nodup := by
  rw [keys_set]
  split
  · exact h
  · rename_i hk
    exact List.nodup_append.2 ⟨h, by simp, by intro a ha b hb; simp at hb; subst hb; rintro rfl; exact hk ha⟩

theorem get?_of_mem (m : GoMap κ α) (h : (m.map (·.1)).Nodup) {k : κ} {v : α} (hm : (k, v) ∈ m) :
    m.get? k = some v := by
  induction m with
  | nil => simp at hm
  | cons e m ih =>
    obtain ⟨a, b⟩ := e
    simp only [List.map_cons, List.nodup_cons] at h
    simp at hm
    rcases hm with ⟨rfl, rfl⟩ | hm
    · simp [get?]
    · have : a ≠ k := by rintro rfl; exact h.1 (List.mem_map_of_mem hm (f := (·.1)))
      simp [get?, this, ih h.2 hm]

theorem mem_of_get? (m : GoMap κ α) {k : κ} {v : α} (h : m.get? k = some v) : (k, v) ∈ m := by
  induction m with
  | nil => simp [get?] at h
  | cons e m ih =>
    obtain ⟨a, b⟩ := e
    by_cases ha : a = k
    · simp [get?, ha] at h; simp [ha, h]
    · simp [get?, ha] at h; simp [ih h]

end GoMap

/-- The value of the first entry with the given key. -/
def firstOf {κ α : Type} [DecidableEq κ] (h : List (κ × α)) (k : κ) : Option α := (h.find? (fun e => e.1 = k)).map (·.2)

/-- The value of the last entry with the given key. -/
def lastOf {κ α : Type} [DecidableEq κ] (h : List (κ × α)) (k : κ) : Option α := firstOf h.reverse k

section
variable {κ α : Type} [DecidableEq κ]

theorem firstOf_append (a b : List (κ × α)) (k : κ) : firstOf (a ++ b) k = (firstOf a k).or (firstOf b k) := by
  simp only [firstOf, List.find?_append]
  cases List.find? (fun e => decide (e.1 = k)) a <;> simp

theorem firstOf_cons (e : κ × α) (b : List (κ × α)) (k : κ) :
    firstOf (e :: b) k = if e.1 = k then some e.2 else firstOf b k := by
  simp only [firstOf, List.find?_cons]
  by_cases h : e.1 = k <;> simp [h]

theorem lastOf_append (a : List (κ × α)) (e : κ × α) (k : κ) :
    lastOf (a ++ [e]) k = if e.1 = k then some e.2 else lastOf a k := by
  simp [lastOf, firstOf_cons]

/-- Inserting the entries of a history into a Go map: the last one wins. -/
theorem get?_foldl_set (h : List (κ × α)) (k : κ) :
    GoMap.get? (h.foldl (fun m e => GoMap.set m e.1 e.2) []) k = lastOf h k := by
  rw [← h.reverse_reverse]
  generalize h.reverse = r
  rw [List.foldl_reverse]
  induction r with
  | nil => simp [GoMap.get?, lastOf, firstOf]
  | cons e r ih =>
    rw [List.foldr_cons, GoMap.get?_set, ih, List.reverse_cons, lastOf_append]

theorem lastOf_eq_firstOf (h : List (κ × α)) (hn : (h.map (·.1)).Nodup) (k : κ) : lastOf h k = firstOf h k := by
  induction h with
  | nil => rfl
  | cons e h ih =>
    simp only [List.map_cons, List.nodup_cons] at hn
    rw [lastOf, List.reverse_cons, firstOf_append, ← lastOf, ih hn.2, firstOf_cons, firstOf_cons]
    by_cases he : e.1 = k
    · have : firstOf h k = none := by
        simp only [firstOf, Option.map_eq_none_iff, List.find?_eq_none]
        intro x hx hk
        simp at hk
        exact hn.1 (List.mem_map.2 ⟨x, hx, by rw [hk, he]⟩)
      simp [he, this]
    · simp [he, firstOf]

end

namespace ArrMap
variable {α : Type}

theorem scan_eq (key : Bytes) (es : List (Bytes × α)) : scan key es = firstOf es key := by
  induction es with
  | nil => rfl
  | cons e es ih => obtain ⟨a, b⟩ := e; rw [scan, firstOf_cons, ih]

/-- The state after a history of `Add` calls. -/
theorem foldl_add (h : List (Bytes × α)) :
    (h.length ≤ 30 → (h.foldl (fun a e => a.add e.1 e.2) ({} : ArrMap α)).arrOverflow = false ∧
      (h.foldl (fun a e => a.add e.1 e.2) ({} : ArrMap α)).arr = h) ∧
    (30 < h.length → (h.foldl (fun a e => a.add e.1 e.2) ({} : ArrMap α)).arrOverflow = true ∧
      (h.foldl (fun a e => a.add e.1 e.2) ({} : ArrMap α)).m = h.foldl (fun m e => GoMap.set m e.1 e.2) []) := by
  rw [← h.reverse_reverse]
  generalize h.reverse = r
  rw [List.foldl_reverse, List.foldl_reverse]
  induction r with
  | nil => simp
  | cons e r ih =>
    simp only [List.length_reverse, List.foldr_cons, List.length_cons] at *
    generalize hs : List.foldr (fun x y => add y x.1 x.2) ({} : ArrMap α) r = s at *
    obtain ⟨ih1, ih2⟩ := ih
    constructor
    · intro hl
      obtain ⟨h1, h2⟩ := ih1 (by omega)
      have : ¬ s.arr.length + 1 > loadfactor := by rw [h2]; simp [loadfactor]; omega
      have hadd : s.add e.1 e.2 = { s with arr := s.arr ++ [(e.1, e.2)] } := by
        rw [add, if_neg (by simp [h1]), if_neg this]
      rw [hadd]
      exact ⟨h1, by simp [h2]⟩
    · intro hl
      by_cases hr : r.length ≤ 30
      · obtain ⟨h1, h2⟩ := ih1 hr
        have hlen : s.arr.length + 1 > loadfactor := by rw [h2]; simp [loadfactor]; omega
        rw [add, if_neg (by simp [h1]), if_pos hlen]
        simp only [escapeToMap, h2]
        rw [List.foldl_reverse]
        exact ⟨trivial, rfl⟩
      · obtain ⟨h1, h2⟩ := ih2 (by omega)
        simp [add, h1, h2]

end ArrMap

namespace StrLenMap
variable {α : Type}

theorem scan_eq (key : Bytes) (es : List (Bytes × α)) : scan key es = firstOf es key := by
  induction es with
  | nil => rfl
  | cons e es ih => obtain ⟨a, b⟩ := e; rw [scan, firstOf_cons, ih]

theorem bucket_insert (m : StrLenMap α) (k : Bytes) (v : α) (n : Nat) :
    (m.insert k v).buckets.getD n [] =
      if n = k.length then m.buckets.getD n [] ++ [(k, v)] else m.buckets.getD n [] := by
  have hb : ∀ n, (m.resize (k.length + 1)).buckets.getD n [] =
      if m.buckets.length ≤ k.length then m.buckets.getD n [] else (m.resize (k.length + 1)).buckets.getD n [] := by
    intro n
    split
    · rename_i h
      simp only [resize]
      rw [List.take_of_length_le (by omega)]
      simp only [List.getD_eq_getElem?_getD, List.getElem?_append]
      by_cases hn : n < m.buckets.length
      · simp [hn]
      · simp [hn, List.getElem?_replicate]
        split <;> rfl
    · rfl
  simp only [insert]
  by_cases h : m.buckets.length ≤ k.length
  · simp only [if_pos h]
    have hl : (m.resize (k.length + 1)).buckets.length = k.length + 1 := by
      simp [resize]; omega
    have := hb n
    rw [if_pos h] at this
    by_cases hn : n = k.length
    · subst hn
      have hb' := hb k.length
      rw [if_pos h] at hb'
      rw [hb', if_pos rfl, List.getD_eq_getElem?_getD, List.getElem?_set_self (by omega)]
      simp
    · rw [if_neg hn, ← this, List.getD_eq_getElem?_getD, List.getElem?_set_ne (fun e => hn e.symm),
        ← List.getD_eq_getElem?_getD]
  · simp only [if_neg h]
    by_cases hn : n = k.length
    · subst hn
      rw [if_pos rfl, List.getD_eq_getElem?_getD, List.getElem?_set_self (by omega)]
      simp
    · rw [if_neg hn, List.getD_eq_getElem?_getD, List.getElem?_set_ne (fun e => hn e.symm),
        ← List.getD_eq_getElem?_getD]

theorem bucket_foldl (h : List (Bytes × α)) (n : Nat) :
    (h.foldl (fun m e => m.insert e.1 e.2) ({} : StrLenMap α)).buckets.getD n [] =
      h.filter (fun e => e.1.length = n) := by
  rw [← h.reverse_reverse]
  generalize h.reverse = r
  rw [List.foldl_reverse]
  induction r with
  | nil => simp
  | cons e r ih =>
    rw [List.foldr_cons, bucket_insert, ih, List.reverse_cons, List.filter_append]
    by_cases hn : n = e.1.length
    · simp [hn]
    · simp [hn]; exact fun e => hn e.symm

theorem get_eq (m : StrLenMap α) (k : Bytes) : m.get k = firstOf (m.buckets.getD k.length []) k := by
  simp only [get]
  split
  · rename_i h
    rw [List.getD_eq_getElem?_getD, List.getElem?_eq_none h]
    rfl
  · rw [scan_eq]

end StrLenMap
end Indigo
