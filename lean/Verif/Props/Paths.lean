/-
C39: where catchers are.
-/
import Verif.Spec.Paths
import Verif.Props.Router

namespace Indigo.Props
open Indigo.Router Indigo.Spec.Router Indigo.GoPath

private theorem elems_any (es : List Bytes) (h : ∀ e ∈ es, SLASH ∉ e) (hne : es ≠ []) : elems [] (pathOf es) = [] :: es := by
  cases es with
  | nil => exact absurd rfl hne
  | cons s ss =>
    have key : ∀ (ss : List Bytes) s, (∀ x ∈ s :: ss, SLASH ∉ x) → elems [] (s ++ pathOf ss) = s :: ss := by
      intro ss
      induction ss with
      | nil => intro s h; simp [pathOf, elems_plain [] s (h s (by simp))]
      | cons t ss ih =>
        intro s h
        have : s ++ pathOf (t :: ss) = s ++ SLASH :: (t ++ pathOf ss) := by simp [pathOf]
        rw [this, elems_append, elems_plain [] s (h s (by simp)), ih t (fun x hx => h x (List.mem_cons_of_mem _ hx))]
        rfl
    have : pathOf (s :: ss) = [] ++ SLASH :: (s ++ pathOf ss) := by simp [pathOf]
    rw [this, elems_append, key ss s h]
    rfl

/-- Kept sections are clean. -/
private theorem step_clean (out : List Bytes) (e : Bytes) (he : SLASH ∉ e) (h : ∀ x ∈ out, CleanPart x) : ∀ x ∈ cleanStep true out e, CleanPart x := by
  unfold cleanStep
  split
  · exact h
  · rename_i h1
    split
    · split
      · simp
      · rename_i o os
        rw [if_neg (h o (by simp)).2.2.1]
        exact fun x hx => h x (by simp [hx])
    · rename_i h2
      simp only [not_or] at h1
      intro x hx
      rcases List.mem_cons.1 hx with rfl | hx
      · exact ⟨h1.1, h1.2, h2, he⟩
      · exact h x hx

private theorem fold_clean (es : List Bytes) : ∀ (out : List Bytes), (∀ e ∈ es, SLASH ∉ e) → (∀ x ∈ out, CleanPart x) →
    (∀ x ∈ es.foldl (cleanStep true) out, CleanPart x) ∧ Resolves (out.reverse ++ es) (es.foldl (cleanStep true) out).reverse := by
  induction es with
  | nil => intro out _ h; exact ⟨h, by simpa using Resolves.done _⟩
  | cons e es ih =>
    intro out he h
    have hs := step_clean out e (he e (by simp)) h
    obtain ⟨h1, h2⟩ := ih (cleanStep true out e) (fun x hx => he x (by simp [hx])) hs
    refine ⟨h1, ?_⟩
    rw [List.foldl_cons]
    by_cases k1 : e = []
    · subst k1; exact .empty _ h2
    by_cases k2 : e = b!"."
    · subst k2; exact .here _ h2
    by_cases k3 : e = b!".."
    · subst k3
      cases out with
      | nil => exact .top h2
      | cons o os =>
        have ho := h o (by simp)
        have : cleanStep true (o :: os) b!".." = os := by
          unfold cleanStep
          rw [if_neg (by decide), if_pos rfl]
          simp only
          rw [if_neg ho.2.2.1]
        rw [this] at h2 ⊢
        simpa using Resolves.up os.reverse ho h2
    · have : cleanStep true out e = e :: out := cleanStep_part true out e ⟨k1, k2, k3, he e (by simp)⟩
      rw [this] at h2 ⊢
      simpa using h2

/-- What sections stand for does not depend on the order of the steps. -/
private theorem resolves_fold {es ss : List Bytes} (h : Resolves es ss) :
    es.foldl (cleanStep true) [] = ss.foldl (cleanStep true) [] := by
  induction h with
  | done => rfl
  | empty a _ ih => rw [← ih]; simp [List.foldl_append, cleanStep]
  | here a _ ih => rw [← ih]; simp [List.foldl_append, cleanStep]
  | @up a x b ss hx _ ih =>
    rw [← ih]
    simp only [List.foldl_append, List.foldl_cons]
    rw [cleanStep_part true _ x hx]
    congr 1
    unfold cleanStep
    rw [if_neg (by decide), if_pos rfl]
    simp only
    rw [if_neg hx.2.2.1]
  | top _ ih => rw [← ih]; rfl

/-- C39: the path of a catcher is made of the sections of the router's prefix and those given to `Catch`, with `.`, `..` and repeated slashes
resolved: there is one way to do so, nothing of them is left, and nothing leads above the root. -/
theorem C39_catcher_path (es es' : List Bytes) (h : ∀ e ∈ es ++ es', SLASH ∉ e) (hne : es ++ es' ≠ []) :
    ∃ ss, (∀ s ∈ ss, CleanPart s) ∧ Resolves (es ++ es') ss ∧ (∀ ss', (∀ s ∈ ss', CleanPart s) → Resolves (es ++ es') ss' → ss' = ss) ∧
      join (pathOf es) (pathOf es') = fromRoot ss := by
  obtain ⟨h1, h2⟩ := fold_clean (es ++ es') [] h (by simp)
  refine ⟨((es ++ es').foldl (cleanStep true) []).reverse, by simpa using h1, h2, ?_, ?_⟩
  · intro ss' hc hr
    rw [resolves_fold hr, foldl_parts true [] ss' hc]
    simp
  · have root : ∀ l : List Bytes, SLASH :: joinElems l = fromRoot l := by
      intro l
      cases l with
      | nil => rfl
      | cons s l => exact joinElems_pathOf s l
    have skip : ∀ (o : List Bytes) es, ([] :: es).foldl (cleanStep true) o = es.foldl (cleanStep true) o := fun o es => rfl
    have ne : ∀ {l : List Bytes}, l ≠ [] → pathOf l ≠ [] ∧ (pathOf l).head? = some SLASH := by
      intro l hl
      cases l with
      | nil => exact absurd rfl hl
      | cons s l => simp [pathOf]
    have one : ∀ l : List Bytes, l ≠ [] → (∀ e ∈ l, SLASH ∉ e) → clean (pathOf l) = fromRoot (l.foldl (cleanStep true) []).reverse := by
      intro l hl he
      simp only [clean, (ne hl).2, decide_true]
      rw [elems_any l he hl, skip, if_pos trivial, root]
    by_cases k1 : es = []
    · subst k1
      rw [List.nil_append] at hne h ⊢
      rw [join, if_neg (by simp [ne hne]), if_pos (show pathOf [] = [] from rfl), one es' hne h]
    · by_cases k2 : es' = []
      · subst k2
        rw [List.append_nil] at hne h ⊢
        rw [join, if_neg (by simp [ne hne]), if_neg (ne hne).1, if_pos (show pathOf [] = [] from rfl), one es hne h]
      · rw [join, if_neg (by simp [ne k1]), if_neg (ne k1).1, if_neg (ne k2).1]
        have hr : (pathOf es ++ SLASH :: pathOf es').head? = some SLASH := by
          cases es with
          | nil => exact absurd rfl k1
          | cons s es => rfl
        simp only [clean, hr, decide_true]
        rw [elems_append, elems_any es (fun e he => h e (by simp [he])) k1, elems_any es' (fun e he => h e (by simp [he])) k2, List.foldl_append, skip, skip, if_pos trivial, root,
          ← List.foldl_append]

/-- C39: a catcher of the group `/api/v1`, with a path which leads out of the group. -/
example : join b!"/api/v1" b!"/../x//./y" = b!"/api/x/y" ∧
    Resolves [b!"api", b!"v1", b!"..", b!"x", [], b!".", b!"y"] [b!"api", b!"x", b!"y"] :=
  ⟨by decide, .up [b!"api"] (x := b!"v1") (b := [b!"x", [], b!".", b!"y"]) (by unfold CleanPart; decide)
    (.empty [b!"api", b!"x"] (b := [b!".", b!"y"]) (.here [b!"api", b!"x"] (b := [b!"y"]) (.done _)))⟩

end Indigo.Props
