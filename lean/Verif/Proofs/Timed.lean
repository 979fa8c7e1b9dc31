/-
What is read from a connection on which bytes arrive at given times.
-/
import Verif.Spec.Timed

namespace Indigo.Timed

theorem readAt_time (T size now : Nat) (arr : Arrivals) : now ≤ (readAt T size now arr).2.1 := by
  unfold readAt
  split
  · simp
  · split
    · simp
    · simp only; omega

theorem finish_ge (T size : Nat) (ds : List Nat) : ∀ now arr, now ≤ finish T size now arr ds := by
  induction ds with
  | nil => intro now arr; exact Nat.le_refl _
  | cons d ds ih =>
    intro now arr
    have h1 := readAt_time T size (now + d) arr
    simp only [finish]
    rcases hr : readAt T size (now + d) arr with ⟨ev, t, rest⟩
    rw [hr] at h1
    have h2 := ih t rest
    simp only at h1 ⊢
    omega

/-- After some bytes have been read, the rest is as lively. -/
theorem lively_drop {T m : Nat} : ∀ (k : Nat) {since : Nat} {xs : Arrivals}, Lively T since xs → since ≤ m →
    (∀ a ∈ xs.take k, a.1 ≤ m) → ∃ since', since' ≤ m ∧ Lively T since' (xs.drop k)
  | 0, since, xs, h, hm, _ => ⟨since, hm, by simpa using h⟩
  | k + 1, since, [], h, hm, _ => ⟨since, hm, by simp [Lively]⟩
  | k + 1, since, (t, b) :: xs, h, hm, ha => by
    obtain ⟨h1, h2, h3⟩ := h
    exact lively_drop k h3 (ha (t, b) (by simp)) (fun a haa => ha a (by simp [haa]))

theorem takeWhile_late {p : Nat × UInt8 → Bool} : ∀ (xs ys : Arrivals), (∀ y ∈ ys, p y = false) →
    (xs ++ ys).takeWhile p = xs.takeWhile p
  | [], [], _ => rfl
  | [], y :: ys, h => by simp [List.takeWhile, h y (by simp)]
  | x :: xs, ys, h => by
    simp only [List.cons_append, List.takeWhile]
    cases p x with
    | true => simp [takeWhile_late xs ys h]
    | false => rfl

theorem take_takeWhile {α : Type} {p : α → Bool} : ∀ (xs : List α) (k : Nat), ∀ a ∈ xs.take (min k (xs.takeWhile p).length), p a = true
  | [], k => by simp
  | x :: xs, 0 => by simp
  | x :: xs, k + 1 => by
    intro a ha
    simp only [List.takeWhile] at ha
    cases hp : p x with
    | false => simp [hp] at ha
    | true =>
      simp only [hp, List.length_cons, Nat.succ_min_succ, List.take_succ_cons, List.mem_cons] at ha
      rcases ha with rfl | ha
      · exact hp
      · exact take_takeWhile xs k a ha

theorem take_takeWhile_eq {α : Type} {p : α → Bool} : ∀ (xs : List α) (k : Nat), (xs.takeWhile p).take k = xs.take (min k (xs.takeWhile p).length)
  | [], k => by simp
  | x :: xs, 0 => by simp
  | x :: xs, k + 1 => by
    simp only [List.takeWhile]
    cases hp : p x with
    | false => simp
    | true =>
      simp only [List.length_cons, Nat.succ_min_succ, List.take_succ_cons]
      rw [take_takeWhile_eq xs k]

/-- The reads of a connection on which the lively bytes `xs` arrive, and then nothing as long as is read: data, and then timeouts. -/
theorem script_lively (T size : Nat) (hs : 0 < size) (ds : List Nat) : ∀ (now since : Nat) (xs ys : Arrivals), since ≤ now → Lively T since xs →
    xs.length ≤ ds.length → (∀ y ∈ ys, finish T size now (xs ++ ys) ds < y.1) →
    ∃ (segments : List Bytes) (n : Nat), (∀ d ∈ segments, d ≠ []) ∧ segments.flatten = xs.map (·.2) ∧ segments.length ≤ xs.length ∧
      script T size now (xs ++ ys) ds = segments.map (fun d => (d, none)) ++ List.replicate n ([], some .timeout) ∧
      segments.length + n = ds.length := by
  induction ds with
  | nil =>
    intro now since xs ys _ _ hl _
    have : xs = [] := List.eq_nil_of_length_eq_zero (by simpa using hl)
    subst this
    exact ⟨[], 0, by simp, by simp, by simp, rfl, rfl⟩
  | cons δ ds ih =>
    intro now since xs ys hnow hlive hl hlate
    cases xs with
    | nil =>
      have hread : readAt T size (now + δ) ys = (([], some .timeout), now + δ + T, ys) := by
        cases ys with
        | nil => rfl
        | cons y ys =>
          obtain ⟨t, b⟩ := y
          simp only [readAt]
          by_cases h : now + δ + T < t
          · rw [if_pos h]
          · exfalso
            have h1 := hlate (t, b) (by simp)
            simp only [List.nil_append, finish, readAt, if_neg h] at h1
            have h2 := finish_ge T size ds (max (now + δ) t)
              (((t, b) :: ys).drop (min size (((t, b) :: ys).takeWhile (fun a => decide (a.1 ≤ max (now + δ) t))).length))
            omega
      obtain ⟨segs, n, i1, i2, i3, i4, i5⟩ := ih (now + δ + T) since [] ys (by omega) trivial (by simp) (by
        intro y hy
        have := hlate y hy
        simp only [List.nil_append, finish, hread] at this
        exact this)
      have hseg : segs = [] := by
        cases segs with
        | nil => rfl
        | cons d segs =>
          simp only [List.flatten_cons, List.map_nil, List.append_eq_nil_iff] at i2
          exact absurd i2.1 (i1 d (by simp))
      subst hseg
      refine ⟨[], n + 1, by simp, by simp, by simp, ?_, by simp at i5 ⊢; omega⟩
      simp only [List.nil_append, script, hread] at i4 ⊢
      rw [i4]
      simp [List.replicate_succ]
    | cons x xs =>
      obtain ⟨t, b⟩ := x
      obtain ⟨l1, l2, l3⟩ := hlive
      have hdl : ¬ now + δ + T < t := by omega
      generalize hm : max (now + δ) t = m
      have hp : ∀ y ∈ ys, (fun a : Nat × UInt8 => decide (a.1 ≤ m)) y = false := by
        intro y hy
        have h1 := hlate y hy
        simp only [List.cons_append, finish, readAt, if_neg hdl, hm] at h1
        have h2 := finish_ge T size ds m
          (((t, b) :: (xs ++ ys)).drop (min size (((t, b) :: (xs ++ ys)).takeWhile (fun a => decide (a.1 ≤ m))).length))
        simp only [decide_eq_false_iff_not]
        omega
      have htw := takeWhile_late ((t, b) :: xs) ys hp
      rw [List.cons_append] at htw
      generalize hk : min size (((t, b) :: xs).takeWhile (fun a => decide (a.1 ≤ m))).length = k
      have hk1 : k ≤ ((t, b) :: xs).length := by
        rw [← hk]
        have := (List.takeWhile_sublist (l := (t, b) :: xs) (fun a => decide (a.1 ≤ m))).length_le
        omega
      have hk0 : 0 < k := by
        rw [← hk]
        have : decide (t ≤ m) = true := by simp; omega
        simp only [List.takeWhile, this, List.length_cons]
        omega
      have hread : readAt T size (now + δ) ((t, b) :: (xs ++ ys)) =
          (((((t, b) :: xs).take k).map (·.2), none), m, ((t, b) :: xs).drop k ++ ys) := by
        simp only [readAt, if_neg hdl, hm, htw, hk]
        rw [take_takeWhile_eq, hk]
        refine congrArg _ (congrArg _ ?_)
        rw [← List.cons_append, List.drop_append_of_le_length hk1]
      obtain ⟨since', s1, s2⟩ := lively_drop (m := m) k (since := since) (xs := (t, b) :: xs) ⟨l1, l2, l3⟩ (by omega) (by
        intro a ha
        rw [← hk] at ha
        have := take_takeWhile (p := fun a : Nat × UInt8 => decide (a.1 ≤ m)) ((t, b) :: xs) size a ha
        simpa using this)
      obtain ⟨segs, n, i1, i2, i3, i4, i5⟩ := ih m since' (((t, b) :: xs).drop k) ys s1 s2
        (by simp only [List.length_drop, List.length_cons] at hl ⊢; omega) (by
        intro y hy
        have := hlate y hy
        simp only [List.cons_append, finish, hread] at this
        exact this)
      refine ⟨(((t, b) :: xs).take k).map (·.2) :: segs, n, ?_, ?_, ?_, ?_, ?_⟩
      · intro d hd
        rcases List.mem_cons.1 hd with rfl | hd
        · obtain ⟨k', rfl⟩ := Nat.exists_eq_succ_of_ne_zero (n := k) (by omega)
          simp
        · exact i1 d hd
      · rw [List.flatten_cons, i2, ← List.map_append, List.take_append_drop]
      · simp only [List.length_drop, List.length_cons] at i3 hk1 ⊢; omega
      · simp only [List.cons_append, script, hread]
        rw [i4]
        rfl
      · simp only [List.length_cons]; omega

end Indigo.Timed
