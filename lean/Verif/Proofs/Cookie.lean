import Verif.Model.Cookie
import Verif.Spec.Cookie
import Verif.Proofs.Storage

namespace Indigo.CookieJar
open Indigo.Spec.Cookie

/-- `Add` of several pairs. -/
def addAll (jar : Storage) (ps : List (Bytes × Bytes)) : Storage :=
  { jar with pairs := jar.pairs ++ ps.map (fun p => ⟨p.1, p.2⟩) }

theorem addAll_nil (jar : Storage) : addAll jar [] = jar := by cases jar; simp [addAll]

theorem addAll_cons (jar : Storage) (k v : Bytes) (ps : List (Bytes × Bytes)) :
    addAll (jar.add k v) ps = addAll jar ((k, v) :: ps) := by
  simp [addAll, Storage.add]

theorem cut_head (c : Byte) (k v : Bytes) (h : c ∉ k) : cut c (k ++ c :: v) = some (k, v) := cut_append h

theorem stripSpace_length (s : Bytes) : (stripSpace s).length ≤ s.length := by
  cases s with
  | nil => simp [stripSpace]
  | cons c cs => simp only [stripSpace]; split <;> simp

/-- What is accepted is what the header says. -/
theorem parseLoop_of_says {data : Bytes} {ps : List (Bytes × Bytes)} (h : Says data ps) :
    ∀ (fuel : Nat) (jar : Storage), data.length ≤ fuel → parseLoop fuel jar data = (addAll jar ps, false) := by
  induction h with
  | none =>
    intro fuel jar _
    cases fuel <;> simp [parseLoop, addAll_nil]
  | @last k v hk h1 h2 =>
    intro fuel jar hf
    cases fuel with
    | zero => simp at hf
    | succ fuel =>
      have hc : cut EQUALS (k ++ 61 :: v) = some (k, v) := cut_append h1
      have hc2 : cut SEMI v = none := cut_none.2 h2
      have hkl : ¬ k.length = 0 := by simpa using hk
      rw [parseLoop, if_neg (by simp), hc]
      simp only [if_neg hkl, hc2]
      rw [← addAll_cons, addAll_nil]
      cases fuel <;> simp [parseLoop]
  | @more k v rest ps hk h1 h2 h3 _ ih =>
    intro fuel jar hf
    cases fuel with
    | zero => simp at hf
    | succ fuel =>
      have hc : cut EQUALS (k ++ 61 :: (v ++ 59 :: rest)) = some (k, v ++ 59 :: rest) := cut_append h1
      have hc2 : cut SEMI (v ++ 59 :: rest) = some (v, rest) := cut_append h2
      have hkl : ¬ k.length = 0 := by simpa using hk
      have hs : stripSpace rest = rest := by
        cases rest with
        | nil => rfl
        | cons c cs => simp at h3; simp [stripSpace, h3]
      rw [parseLoop, if_neg (by simp), hc]
      simp only [if_neg hkl, hc2, hs]
      rw [ih fuel _ (by simp at hf; omega), addAll_cons]
  | @moreSpace k v rest ps hk h1 h2 _ ih =>
    intro fuel jar hf
    cases fuel with
    | zero => simp at hf
    | succ fuel =>
      have hc : cut EQUALS (k ++ 61 :: (v ++ 59 :: 32 :: rest)) = some (k, v ++ 59 :: 32 :: rest) := cut_append h1
      have hc2 : cut SEMI (v ++ 59 :: 32 :: rest) = some (v, 32 :: rest) := cut_append h2
      have hkl : ¬ k.length = 0 := by simpa using hk
      rw [parseLoop, if_neg (by simp), hc]
      simp only [if_neg hkl, hc2, stripSpace, if_true]
      rw [ih fuel _ (by simp at hf; omega), addAll_cons]

theorem says_nil {data : Bytes} {ps : List (Bytes × Bytes)} (h : Says data ps) (h0 : data = []) : ps = [] := by
  cases h <;> simp at h0 ⊢

/-- A header that is accepted says what is put into the jar. -/
theorem says_of_parseLoop : ∀ (fuel : Nat) (jar jar' : Storage) (data : Bytes),
    parseLoop fuel jar data = (jar', false) → ∃ ps, Says data ps ∧ jar' = addAll jar ps := by
  intro fuel
  induction fuel with
  | zero =>
    intro jar jar' data h
    simp [parseLoop] at h
    obtain ⟨rfl, rfl⟩ := h
    exact ⟨[], .none, (addAll_nil _).symm⟩
  | succ fuel ih =>
    intro jar jar' data h
    rw [parseLoop] at h
    split at h
    · rename_i h0
      simp at h h0
      subst h0 h
      exact ⟨[], .none, (addAll_nil _).symm⟩
    · cases hc : cut EQUALS data with
      | none => rw [hc] at h; simp at h
      | some kd =>
        obtain ⟨k, d⟩ := kd
        rw [hc] at h
        obtain ⟨rfl, hk⟩ := cut_some hc
        simp only at h
        split at h
        · simp at h
        · rename_i hk0
          have hkne : k ≠ [] := by simpa using hk0
          cases hc2 : cut SEMI d with
          | none =>
            rw [hc2] at h
            have hd := cut_none.1 hc2
            obtain ⟨ps, hs, rfl⟩ := ih _ _ _ h
            obtain rfl := says_nil hs rfl
            exact ⟨_, .last hkne hk hd, by rw [addAll_nil, ← addAll_cons, addAll_nil]⟩
          | some vr =>
            obtain ⟨v, rest⟩ := vr
            rw [hc2] at h
            obtain ⟨rfl, hv⟩ := cut_some hc2
            obtain ⟨ps, hs, rfl⟩ := ih _ _ _ h
            cases rest with
            | nil => exact ⟨_, .more hkne hk hv (by simp) hs, by rw [addAll_cons]⟩
            | cons c cs =>
              simp only [stripSpace] at hs
              split at hs
              · rename_i hc; subst hc
                exact ⟨_, .moreSpace hkne hk hv hs, by rw [addAll_cons]⟩
              · rename_i hc
                exact ⟨_, .more hkne hk hv (by simpa using hc) hs, by rw [addAll_cons]⟩

theorem nameChar_ne {c : Byte} (h : nameChar c = true) : c ≠ 61 := by
  rintro rfl; revert h; decide

theorem valueChar_ne {c : Byte} (h : valueChar c = true) : c ≠ 59 := by
  rintro rfl; revert h; decide

/-- The header a browser sends says the cookies. -/
theorem says_text : ∀ ps : List (Bytes × Bytes), (∀ p ∈ ps, Valid p) → Says (text ps) ps := by
  intro ps
  induction ps with
  | nil => intro _; exact .none
  | cons p ps ih =>
    intro h
    obtain ⟨h1, h2, h3⟩ := h p (by simp)
    have hn : 61 ∉ p.1 := fun hm => nameChar_ne (h2 _ hm) rfl
    have hv : 59 ∉ p.2 := fun hm => valueChar_ne (h3 _ hm) rfl
    cases ps with
    | nil =>
      have := Says.last h1 hn hv
      simpa [text, pair] using this
    | cons q ps =>
      have hr := ih (fun p hp => h p (by simp [hp]))
      have := Says.moreSpace h1 hn hv hr
      simpa [text, pair] using this

end Indigo.CookieJar
