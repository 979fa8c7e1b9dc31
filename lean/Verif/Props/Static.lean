/-
C40: static files never escape their root.
-/
import Verif.Proofs.Static
import Verif.Proofs.Router5

namespace Indigo
open PathLib Indigo.Spec.Static Indigo.Spec.Router

theorem newPath_eq (pre root : Bytes) (hp : pre ≠ []) (hr : root ≠ []) :
    newPath pre root = some ⟨max (dir pre ++ [separator pre]).length (dir root ++ [separator root]).length,
      dir pre ++ [separator pre], dir root ++ [separator root]⟩ := by
  unfold newPath
  rw [Static.withTrailingSep_eq pre hp, Static.withTrailingSep_eq root hr]

private theorem dir_length (p : Bytes) : (dir p).length ≤ p.length := by
  unfold dir
  by_cases h : p.getLast? = some (separator p)
  · rw [if_pos h]; simp
  · rw [if_neg h]; exact Nat.le_refl _

/-- **C40 (part).** `Static(prefix, root)`: whatever requests have been served before, a request served while no other
request runs the same handler either gets a 404 or opens a path inside of the root directory (and without `..`); it
does not panic. Missing: requests served at the same time (see `C40_concurrent_violation`), and request paths shorter
than the prefix, which the router passes on only if the prefix is not in its cleaned form
(see `C40_clean_prefix_partial` and `C40_unclean_prefix_violation`). -/
theorem C40_contained_partial (pre root : Bytes) (hp : pre ≠ []) (hr : root ≠ []) (earlier : List Bytes) (path : Bytes)
    (hlen : pre.length ≤ path.length) :
    ∃ c, newPath pre root = some c ∧
      ((Static.serve c (Static.serveAll c earlier {}) path).1 = .refused ∨
       ∃ p, (Static.serve c (Static.serveAll c earlier {}) path).1 = .opened p ∧ Inside root p ∧ ¬ HasDots p) := by
  refine ⟨_, newPath_eq pre root hp hr, ?_⟩
  have hspec := fun m hm => (Static.serve_spec ⟨max (dir pre ++ [separator pre]).length (dir root ++ [separator root]).length,
      dir pre ++ [separator pre], dir root ++ [separator root]⟩ m path hm rfl).2
  rw [hspec _ (Static.serveAll_ok _ _ _ (by simp [Static.Mem.Ok]) rfl)]
  have hd := dir_length pre
  rw [if_neg (by simp; omega)]
  by_cases hs : Static.isSafe (Static.target ⟨max (dir pre ++ [separator pre]).length (dir root ++ [separator root]).length,
      dir pre ++ [separator pre], dir root ++ [separator root]⟩ path) = true
  · right
    rw [if_pos hs]
    refine ⟨_, rfl, ?_, (Static.isSafe_iff _).1 hs⟩
    have hs := (Static.isSafe_iff _).1 hs
    generalize hp' : dir pre ++ [separator pre] = pre' at hs ⊢
    have hpl : pre'.length = (dir pre).length + 1 := by rw [← hp']; simp
    by_cases hl : pre'.length ≤ path.length
    · right
      have et : Static.target ⟨max pre'.length (dir root ++ [separator root]).length, pre', dir root ++ [separator root]⟩ path =
          dir root ++ separator root :: path.drop pre'.length := by
        unfold Static.target
        rw [List.take_of_length_le (by simp; omega)]
        simp
      refine ⟨path.drop pre'.length, et, ?_⟩
      rintro ⟨x, y, e⟩
      apply hs
      rw [et, e]
      exact ⟨dir root ++ separator root :: x, y, by simp⟩
    · left
      unfold Static.target
      have : path.drop pre'.length = [] := List.drop_of_length_le (by omega)
      rw [this]
      have hn : (dir root ++ [separator root]).length + path.length - pre'.length = (dir root).length := by
        simp; omega
      simp only [hn]
      simp
  · left
    rw [if_neg hs]

/-- A request with dots is refused, another one opens the file below the root, after any history. -/
example : ∃ c, newPath b!"/static" b!"/srv/www" = some c ∧
    (Static.serve c (Static.serveAll c [b!"/static/a", b!"/static/../../etc/passwd"] {}) b!"/static/css/x.css").1 =
      .opened b!"/srv/www/css/x.css" ∧
    (Static.serve c (Static.serveAll c [b!"/static/a"] {}) b!"/static/../secret").1 = .refused ∧
    (Static.serve c (Static.serveAll c [b!"/static/a"] {}) b!"/static").1 = .opened b!"/srv/www" :=
  ⟨_, rfl, by decide +kernel, by decide +kernel, by decide +kernel⟩

/-- **C40 (part).** The same for every request path the router passes to the handler, when the prefix and the prefix of
the group (possibly none) are in their cleaned form. -/
theorem C40_clean_prefix_partial (g ss : List Bytes) (hss : ss ≠ []) (hg : ∀ x ∈ g, CleanPart x)
    (hs : ∀ x ∈ ss, CleanPart x) (root : Bytes) (hr : root ≠ []) (earlier : List Bytes) (path : Bytes)
    (hcatch : GoPath.join (pathOf g) (pathOf ss) <+: path) :
    ∃ c, newPath (pathOf ss) root = some c ∧
      ((Static.serve c (Static.serveAll c earlier {}) path).1 = .refused ∨
       ∃ p, (Static.serve c (Static.serveAll c earlier {}) path).1 = .opened p ∧ Inside root p ∧ ¬ HasDots p) := by
  apply C40_contained_partial _ _ _ hr
  · rw [GoPath.join_pathOf g ss hg hs] at hcatch
    have := hcatch.length_le
    simp [pathOf] at this ⊢
    omega
  · cases ss with
    | nil => exact absurd rfl hss
    | cons s ss => simp [pathOf]

/-- `/api` and `/static` are such prefixes, `/api/static/../x` such a path. -/
example : (∀ x ∈ [b!"api"], CleanPart x) ∧ (∀ x ∈ [b!"static"], CleanPart x) ∧
    GoPath.join (pathOf [b!"api"]) (pathOf [b!"static"]) <+: b!"/api/static/../x" := by
  refine ⟨by simp [CleanPart]; decide +kernel, by simp [CleanPart]; decide +kernel, ?_⟩
  exact ⟨b!"/../x", by decide +kernel⟩

/-- **C40 (part).** With a clean prefix in no group, the request path below the prefix names the file below the root:
if neither has two dots in a row, exactly that file is opened. -/
theorem C40_serves_partial (pre root name : Bytes) (hp : pre ≠ []) (hr : root ≠ []) (earlier : List Bytes)
    (hd : ¬ HasDots (dir root ++ separator root :: name)) :
    ∃ c, newPath pre root = some c ∧
      (Static.serve c (Static.serveAll c earlier {}) (dir pre ++ separator pre :: name)).1 =
        .opened (dir root ++ separator root :: name) := by
  refine ⟨_, newPath_eq pre root hp hr, ?_⟩
  have hspec := fun m hm => (Static.serve_spec ⟨max (dir pre ++ [separator pre]).length (dir root ++ [separator root]).length,
      dir pre ++ [separator pre], dir root ++ [separator root]⟩ m (dir pre ++ separator pre :: name) hm rfl).2
  rw [hspec _ (Static.serveAll_ok _ _ _ (by simp [Static.Mem.Ok]) rfl)]
  rw [if_neg (by simp; omega)]
  have et : Static.target ⟨max (dir pre ++ [separator pre]).length (dir root ++ [separator root]).length,
      dir pre ++ [separator pre], dir root ++ [separator root]⟩ (dir pre ++ separator pre :: name) =
        dir root ++ separator root :: name := by
    unfold Static.target
    have e : dir pre ++ separator pre :: name = (dir pre ++ [separator pre]) ++ name := by simp
    simp only [e, List.drop_left]
    rw [List.take_of_length_le (by simp; omega)]
    simp
  rw [et, (Static.isSafe_iff _).2 hd, if_pos rfl]

example : ¬ HasDots (dir b!"/srv/www/" ++ separator b!"/srv/www/" :: b!"x.css") :=
  (Static.isSafe_iff _).1 (by decide +kernel)

/-- **C40 (violation).** Two requests served at the same time share one buffer, and the string which was checked is
a window to it: the first request is found safe, the second one overwrites the buffer, and the first one then opens
a path outside of the root. -/
theorem C40_concurrent_violation : ∃ c schedule p m,
    newPath b!"/static" b!"/srv/www" = some c ∧
    Static.run c schedule ([.start b!"/static/aaaaaaaaaaaaa", .start b!"/static/../../etc/pwd"], {}) = m ∧
    m.1[0]? = some (.opened p) ∧ ¬ Inside b!"/srv/www" p := by
  refine ⟨_, [0, 0, 0, 1, 1, 0], b!"/srv/www/../../etc/pwd", _, rfl, rfl, by decide +kernel, ?_⟩
  rintro (h | ⟨rest, h, hd⟩)
  · revert h; decide +kernel
  · have : dir b!"/srv/www" ++ separator b!"/srv/www" :: b!"../../etc/pwd" = dir b!"/srv/www" ++ separator b!"/srv/www" :: rest := by
      rw [← h]; decide +kernel
    have := List.append_cancel_left this
    injection this with _ this
    subst this
    exact hd ⟨[], b!"/../etc/pwd", rfl⟩

/-- **C40 (violation).** A prefix which is not cleaned: the router catches by the cleaned prefix, the handler counts
the bytes of the one passed to it, and a short request path makes it open a proper prefix of the root. -/
theorem C40_unclean_prefix_violation : ∃ c,
    newPath b!"/x/../static" b!"/var/www" = some c ∧
    GoPath.join [] b!"/x/../static" <+: b!"/static/" ∧
    (Static.serve c {} b!"/static/").1 = .opened b!"/var" ∧ ¬ Inside b!"/var/www" b!"/var" := by
  refine ⟨_, rfl, ⟨b!"/", by decide +kernel⟩, by decide +kernel, ?_⟩
  rintro (h | ⟨rest, h, -⟩)
  · revert h; decide +kernel
  · have := congrArg List.length h
    have hl : (dir b!"/var/www").length = 8 := by decide +kernel
    simp [hl] at this
    omega

end Indigo
