import Verif.Model.Storage
import Verif.Spec.Multimap

namespace Indigo.Props
open Indigo.Spec

/-- Runs one operation of the specification on the modelled storage. -/
def storageStep (F : Fold) (s : Storage) : MOp → Storage
  | .add k v => s.add k v
  | .clear => s.clear
  | .readValues k => (s.values F k).2
  | .readKeys => (s.keys F).2

/-- Runs a history of operations on a new storage. -/
def storageRun (F : Fold) (ops : List MOp) : Storage := ops.foldl (storageStep F) Storage.new

theorem storageRun_pairs (F : Fold) (ops : List MOp) :
    (storageRun F ops).pairs = (entries ops).map (fun e => ⟨e.1, e.2⟩) := by
  unfold storageRun entries
  suffices h : ∀ (ops : List MOp) (s : Storage) (es : List Entry),
      s.pairs = es.map (fun e => ⟨e.1, e.2⟩) →
      (ops.foldl (storageStep F) s).pairs = (ops.foldl (fun es op =>
        match op with
        | MOp.add k v => es ++ [(k, v)]
        | .clear => []
        | .readValues _ => es
        | .readKeys => es) es).map (fun e => (⟨e.1, e.2⟩ : Pair)) by
    exact h ops Storage.new [] rfl
  intro ops
  induction ops with
  | nil => intro s es h; simpa using h
  | cons op ops ih =>
    intro s es h
    simp only [List.foldl_cons]
    apply ih
    cases op <;> simp [storageStep, Storage.add, Storage.clear, Storage.values, Storage.keys, h]

theorem getLoop_spec (F : Fold) (k : Bytes) (es : List Entry) :
    Storage.getLoop F k (es.map (fun e => ⟨e.1, e.2⟩)) = firstValue F.eq k es := by
  induction es with
  | nil => rfl
  | cons e es ih =>
    simp only [List.map_cons, Storage.getLoop, firstValue, List.find?_cons, F.eq_comm k e.1]
    cases h : F.eq e.1 k
    · simpa [h, firstValue] using ih
    · simp

theorem hasLoop_spec (F : Fold) (k : Bytes) (es : List Entry) :
    Storage.hasLoop F k (es.map (fun e => ⟨e.1, e.2⟩)) = es.any (fun e => F.eq e.1 k) := by
  induction es with
  | nil => rfl
  | cons e es ih =>
    simp only [List.map_cons, Storage.hasLoop, List.any_cons, F.eq_comm k e.1]
    cases h : F.eq e.1 k
    · simpa [h] using ih
    · simp

theorem valuesLoop_spec (F : Fold) (k : Bytes) (es : List Entry) (acc : List Bytes) :
    Storage.valuesLoop F k (es.map (fun e => ⟨e.1, e.2⟩)) acc = acc ++ allValues F.eq k es := by
  induction es generalizing acc with
  | nil => simp [Storage.valuesLoop, allValues]
  | cons e es ih =>
    simp only [List.map_cons, Storage.valuesLoop, ih, allValues, List.filter_cons]
    cases h : F.eq e.1 k <;> simp

theorem contains_spec (F : Fold) (coll : List Bytes) (k : Bytes) :
    Storage.contains F coll k = coll.any (fun x => F.eq x k) := by
  induction coll with
  | nil => rfl
  | cons x xs ih =>
    simp only [Storage.contains, List.any_cons, ih]
    cases h : F.eq x k <;> simp

/-- `firstKeys` of a list with one more entry. -/
theorem firstKeys_snoc (same : Bytes → Bytes → Bool) (es : List Entry) (e : Entry) :
    firstKeys same (es ++ [e]) =
      if es.any (fun x => same x.1 e.1) then firstKeys same es else firstKeys same es ++ [e.1] := by
  unfold firstKeys
  rw [List.zipIdx_append, List.filter_append, List.map_append]
  have h1 : (es.zipIdx.filter (fun ei => !(((es ++ [e]).take ei.2).any (fun x => same x.1 ei.1.1)))) =
      es.zipIdx.filter (fun ei => !((es.take ei.2).any (fun x => same x.1 ei.1.1))) := by
    apply List.filter_congr
    intro ei hei
    have hlt : ei.2 < es.length := by
      have := List.snd_lt_of_mem_zipIdx hei
      simpa using this
    rw [List.take_append_of_le_length (by omega)]
  rw [h1]
  cases h : es.any (fun x => same x.1 e.1) <;> simp [List.zipIdx_cons, h]

theorem keysLoop_acc (F : Fold) (es done : List Entry) :
    Storage.keysLoop F (es.map (fun e => ⟨e.1, e.2⟩)) (firstKeys F.eq done) =
      firstKeys F.eq (done ++ es) := by
  induction es generalizing done with
  | nil => simp [Storage.keysLoop]
  | cons e es ih =>
    simp only [List.map_cons, Storage.keysLoop, contains_spec]
    have hany : ∀ (done : List Entry) (k : Bytes), (firstKeys F.eq done).any (fun x => F.eq x k) =
        done.any (fun x => F.eq x.1 k) := by
      intro done k
      induction hn : done.length generalizing done with
      | zero =>
        have := List.eq_nil_of_length_eq_zero hn; subst this; rfl
      | succ n ihn =>
        obtain ⟨init, last, rfl⟩ : ∃ init last, done = init ++ [last] :=
          ⟨done.dropLast, done.getLast (by intro h; simp [h] at hn), (List.dropLast_concat_getLast _).symm⟩
        rw [firstKeys_snoc]
        have ihi := ihn init (by simp at hn; exact hn)
        cases hl : init.any (fun x => F.eq x.1 last.1) with
        | false => simp [ihi]
        | true =>
          simp only [if_true, ihi, List.any_append, List.any_cons, List.any_nil, Bool.or_false]
          cases hk : F.eq last.1 k with
          | false => simp
          | true =>
            simp only [Bool.or_true]
            rw [List.any_eq_true] at hl ⊢
            obtain ⟨x, hx, hxe⟩ := hl
            exact ⟨x, hx, F.eq_trans hxe hk⟩
    rw [hany]
    have hstep : (if done.any (fun x => F.eq x.1 e.1) = true then firstKeys F.eq done
        else firstKeys F.eq done ++ [e.1]) = firstKeys F.eq (done ++ [e]) := by
      rw [firstKeys_snoc]
    simp only [hstep, ih]
    simp

end Indigo.Props
