import Verif.Model.Query
import Verif.Proofs.Uri
import Verif.Spec.Form

namespace Indigo.Query
open Indigo.Spec

/-- Scanning a run of key bytes. -/
theorem scan_key_run (t k rest tok : Bytes) (acc : List Pair) (fresh : Bool)
    (hsp : SpacePlus t k) (hk : ∀ c ∈ k, c ≠ 38 ∧ c ≠ 61 ∧ c ≠ 43) (hne : t ≠ []) :
    scan .key (t ++ rest) fresh tok acc = scan .key rest false (tok ++ k) acc := by
  induction hsp generalizing tok fresh with
  | nil => exact absurd rfl hne
  | @same c t s h ih =>
    obtain ⟨h1, h2, h3⟩ := hk c (by simp)
    simp only [List.cons_append, scan, h1, h2, h3, if_false]
    cases t with
    | nil => cases h; rfl
    | cons x xs =>
      rw [ih _ _ (fun d hd => hk d (by simp [hd])) (by simp)]
      simp
  | @plus t s h ih =>
    simp only [List.cons_append, scan, show (43 : Byte) ≠ EQUALS by decide,
      show (43 : Byte) ≠ AMP by decide, if_false, if_true]
    cases t with
    | nil => cases h; rfl
    | cons x xs =>
      rw [ih _ _ (fun d hd => hk d (by simp [hd])) (by simp)]
      simp

/-- Scanning a run of value bytes. -/
theorem scan_value_run (key t v rest tok : Bytes) (acc : List Pair) (fresh : Bool)
    (hsp : SpacePlus t v) (hv : ∀ c ∈ v, c ≠ 38 ∧ c ≠ 43) :
    ∃ fresh', scan (.value key) (t ++ rest) fresh tok acc =
      scan (.value key) rest fresh' (tok ++ v) acc := by
  induction hsp generalizing tok fresh with
  | nil => exact ⟨fresh, by simp⟩
  | @same c t s h ih =>
    obtain ⟨h1, h3⟩ := hv c (by simp)
    simp only [List.cons_append, scan, h1, h3, if_false]
    obtain ⟨f, hf⟩ := ih (tok ++ [c]) false (fun d hd => hv d (by simp [hd]))
    exact ⟨f, by rw [hf]; simp⟩
  | @plus t s h ih =>
    simp only [List.cons_append, scan, show (43 : Byte) ≠ AMP by decide, if_false, if_true]
    obtain ⟨f, hf⟩ := ih (tok ++ [32]) false (fun d hd => hv d (by simp [hd]))
    exact ⟨f, by rw [hf]; simp⟩

/-- Conditions on an item under which it can be told apart after decoding. -/
def ItemOk : QItem → Prop
  | .flag k => k ≠ [] ∧ ∀ c ∈ k, c ≠ 38 ∧ c ≠ 61 ∧ c ≠ 43
  | .kv k v => k ≠ [] ∧ (∀ c ∈ k, c ≠ 38 ∧ c ≠ 61 ∧ c ≠ 43) ∧ ∀ c ∈ v, c ≠ 38 ∧ c ≠ 43

def toPair (i : QItem) : Pair := ⟨i.param.1, i.param.2⟩

theorem SpacePlus.split {t a b : Bytes} {c : Byte} (h : SpacePlus t (a ++ c :: b)) (hc : c ≠ 32) :
    ∃ ta tb, t = ta ++ c :: tb ∧ SpacePlus ta a ∧ SpacePlus tb b := by
  induction a generalizing t with
  | nil =>
    simp only [List.nil_append] at h
    cases h with
    | same h => exact ⟨[], _, rfl, .nil, h⟩
    | plus h => exact absurd rfl hc
  | cons x xs ih =>
    simp only [List.cons_append] at h
    cases h with
    | same h =>
      obtain ⟨ta, tb, rfl, h1, h2⟩ := ih h
      exact ⟨_ :: ta, tb, rfl, .same h1, h2⟩
    | plus h =>
      obtain ⟨ta, tb, rfl, h1, h2⟩ := ih h
      exact ⟨43 :: ta, tb, rfl, .plus h1, h2⟩

theorem SpacePlus.ne_nil {t s : Bytes} (h : SpacePlus t s) (hs : s ≠ []) : t ≠ [] := by
  cases h <;> simp_all

/-- Scanning one item up to the following `&` or the end. -/
theorem scan_item (i : QItem) (t rest : Bytes) (acc : List Pair) (hi : ItemOk i)
    (h : SpacePlus t i.text) :
    scan .key (t ++ 38 :: rest) true [] acc = scan .key rest true [] (acc ++ [toPair i]) ∧
    scan .key t true [] acc = (acc ++ [toPair i], none) := by
  cases i with
  | flag k =>
    simp only [QItem.text] at h
    have hk := hi
    simp only [ItemOk] at hk
    have hne := SpacePlus.ne_nil h hk.1
    refine ⟨?_, ?_⟩
    · rw [scan_key_run t k _ _ _ _ h hk.2 hne]
      simp only [scan, show (38 : Byte) ≠ EQUALS by decide, if_false, if_true]
      rfl
    · have := scan_key_run t k [] [] acc true h hk.2 hne
      simp only [List.append_nil, List.nil_append] at this
      rw [this]
      rfl
  | kv k v =>
    simp only [QItem.text] at h
    have hk := hi
    simp only [ItemOk] at hk
    obtain ⟨tk, tv, rfl, h1, h2⟩ := SpacePlus.split h (by decide)
    have hne := SpacePlus.ne_nil h1 hk.1
    have hlen : ¬ ([] ++ k : Bytes).length = 0 := by
      simp; exact hk.1
    have step : ∀ r : Bytes, scan .key (tk ++ 61 :: tv ++ r) true [] acc =
        scan (.value k) (tv ++ r) false [] acc := by
      intro r
      rw [show tk ++ 61 :: tv ++ r = tk ++ (61 :: (tv ++ r)) by simp,
        scan_key_run tk k _ _ _ _ h1 hk.2.1 hne]
      conv => lhs; unfold scan
      rw [if_pos rfl, if_neg hlen]
      rfl
    refine ⟨?_, ?_⟩
    · rw [step]
      obtain ⟨f, hf⟩ := scan_value_run k tv v (38 :: rest) [] acc false h2 hk.2.2
      rw [hf]
      simp only [scan, if_true]
      rfl
    · have s2 := step []
      simp only [List.append_nil] at s2
      rw [s2]
      obtain ⟨f, hf⟩ := scan_value_run k tv v [] [] acc false h2 hk.2.2
      simp only [List.append_nil] at hf
      rw [hf]
      simp only [scan]
      rfl

theorem SpacePlus.append_split {t a b : Bytes} (h : SpacePlus t (a ++ b)) :
    ∃ ta tb, t = ta ++ tb ∧ SpacePlus ta a ∧ SpacePlus tb b := by
  induction a generalizing t with
  | nil => exact ⟨[], t, rfl, .nil, h⟩
  | cons x xs ih =>
    simp only [List.cons_append] at h
    cases h with
    | same h =>
      obtain ⟨ta, tb, rfl, h1, h2⟩ := ih h
      exact ⟨_ :: ta, tb, rfl, .same h1, h2⟩
    | plus h =>
      obtain ⟨ta, tb, rfl, h1, h2⟩ := ih h
      exact ⟨43 :: ta, tb, rfl, .plus h1, h2⟩

theorem scan_items (items : List QItem) (t : Bytes) (acc : List Pair) (hok : ∀ i ∈ items, ItemOk i)
    (h : SpacePlus t (formText items)) :
    scan .key t true [] acc = (acc ++ items.map toPair, none) := by
  induction items generalizing t acc with
  | nil => cases h; simp [scan]
  | cons i is ih =>
    cases is with
    | nil =>
      simp only [formText] at h
      rw [(scan_item i t [] acc (hok i (by simp)) h).2]
      simp
    | cons j js =>
      simp only [formText] at h
      obtain ⟨ta, tb, rfl, h1, h2⟩ := SpacePlus.split h (by decide)
      rw [(scan_item i ta tb acc (hok i (by simp)) h1).1,
        ih tb _ (fun x hx => hok x (by simp [hx])) h2]
      simp

/-- Items followed by something else. -/
theorem scan_items_then (items : List QItem) (t r : Bytes) (acc : List Pair)
    (hok : ∀ i ∈ items, ItemOk i) (hne : items ≠ []) (h : SpacePlus t (formText items)) :
    scan .key (t ++ 38 :: r) true [] acc = scan .key r true [] (acc ++ items.map toPair) := by
  induction items generalizing t acc with
  | nil => exact absurd rfl hne
  | cons i is ih =>
    cases is with
    | nil =>
      simp only [formText] at h
      rw [(scan_item i t r acc (hok i (by simp)) h).1]
      simp
    | cons j js =>
      simp only [formText] at h
      obtain ⟨ta, tb, rfl, h1, h2⟩ := SpacePlus.split h (by decide)
      rw [show ta ++ 38 :: tb ++ 38 :: r = ta ++ 38 :: (tb ++ 38 :: r) by simp,
        (scan_item i ta _ acc (hok i (by simp)) h1).1,
        ih tb _ (fun x hx => hok x (by simp [hx])) (by simp) h2]
      simp

theorem SpacePlus.refl (s : Bytes) : SpacePlus s s := by
  induction s with
  | nil => exact .nil
  | cons c s ih => exact .same ih

end Indigo.Query
