/-
Lemmas about slices and `append`.
-/
import Verif.Model.ResponseMem

namespace Indigo.ResponseMem

/-- A slice within its array. -/
structure Valid (m : Mem) (s : Slice) : Prop where
  len : s.len ≤ s.cap
  inside : s.off + s.cap ≤ (m.array s.ref).length

theorem array_store (m : Mem) (r : Ref) (b : Bytes) (h : b.length = (m.array r).length) :
    (m.store r b).array r = b := by
  cases r <;> simp only [Mem.array, Mem.store, List.getElem?_set_self'] at h ⊢
  all_goals
    rename_i i
    generalize hx : m.app[i]? = x at h ⊢
    generalize hy : m.own[i]? = y at h ⊢
    first
      | (cases x with
          | none => simp at h ⊢; exact h.symm ▸ rfl
          | some _ => simp)
      | (cases y with
          | none => simp at h ⊢; exact h.symm ▸ rfl
          | some _ => simp)

theorem overwrite_length (a : Bytes) (pos : Nat) (b : Bytes) (h : pos + b.length ≤ a.length) :
    (overwrite a pos b).length = a.length := by
  simp [overwrite]; omega

theorem overwrite_read (a : Bytes) (off len : Nat) (b : Bytes) (h : off + len + b.length ≤ a.length) :
    ((overwrite a (off + len) b).drop off).take (len + b.length) = (a.drop off).take len ++ b := by
  have hl : (a.take (off + len)).length = off + len := by simp; omega
  rw [overwrite, List.append_assoc, List.drop_append, hl]
  rw [show off - (off + len) = 0 by omega, List.drop_zero, List.drop_take,
    show off + len - off = len by omega, List.take_append]
  have h2 : ((a.drop off).take len).length = len := by simp; omega
  rw [h2, show len + b.length - len = b.length by omega]
  rw [List.take_of_length_le (by rw [h2]; omega)]
  simp

theorem append_read (grow : Nat → Nat → Nat) (m : Mem) (s : Slice) (b : Bytes) (v : Valid m s) :
    Valid (append grow m s b).1 (append grow m s b).2 ∧
    (append grow m s b).1.read (append grow m s b).2 = m.read s ++ b := by
  obtain ⟨v1, v2⟩ := v
  unfold append
  split
  · rename_i hc
    have hlen := overwrite_length (m.array s.ref) (s.off + s.len) b (by omega)
    have harr := array_store m s.ref _ hlen
    refine ⟨⟨hc, ?_⟩, ?_⟩
    · rw [harr, hlen]; exact v2
    · simp only [Mem.read, harr]
      exact overwrite_read _ _ _ _ (by omega)
  · have hr : (m.read s).length = s.len := by simp [Mem.read]; omega
    refine ⟨⟨?_, ?_⟩, ?_⟩
    · exact Nat.le_max_left _ _
    · simp [Mem.array, hr]; omega
    · show List.take _ (List.drop 0 (Mem.array _ (.own _))) = _
      generalize m.read s = x at hr
      simp only [Mem.array, List.getElem?_concat_length, Option.getD_some, List.drop_zero]
      rw [List.take_append, List.take_of_length_le (by simp [hr]), List.length_append, hr]
      simp

end Indigo.ResponseMem
