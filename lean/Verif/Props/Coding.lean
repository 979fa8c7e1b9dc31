/-
C67: content codings.
-/
import Verif.Model.Coding
import Verif.Proofs.Maps

namespace Indigo.Props

/-- The manager after a sequence of registrations. -/
def managerAfter (cs : List Coding) : Coding.Manager := cs.foldl Coding.Manager.addCoding []

/-- The tokens a coding answers to: its own one and, for gzip and compress, the historical one. -/
def answersTo (c : Coding) (tok : Bytes) : Prop :=
  c.token = tok ∨ (c.token = b!"gzip" ∧ tok = b!"x-gzip") ∨ (c.token = b!"compress" ∧ tok = b!"x-compress")

instance (c : Coding) (tok : Bytes) : Decidable (answersTo c tok) := by unfold answersTo; infer_instance

/-- The coding in charge of a token: the one registered last among those which answer to it. -/
def inCharge (cs : List Coding) (tok : Bytes) : Option Coding := cs.reverse.find? (fun c => answersTo c tok)

private theorem get?_addCoding (m : Coding.Manager) (c : Coding) (tok : Bytes) :
    GoMap.get? (m.addCoding c) tok = if answersTo c tok then some c else GoMap.get? m tok := by
  unfold Coding.Manager.addCoding answersTo
  by_cases h1 : c.token = b!"gzip"
  · simp only [h1, if_true, GoMap.get?_set]
    by_cases h2 : b!"x-gzip" = tok
    · simp [← h2]
    · have h2' : ¬ tok = b!"x-gzip" := fun e => h2 e.symm
      by_cases h3 : b!"gzip" = tok
      · simp [h3]
      · simp [h2, h2', h3]
  · by_cases h1' : c.token = b!"compress"
    · simp only [h1']
      by_cases h2 : b!"x-compress" = tok
      · simp [← h2, GoMap.get?_set]
      · have h2' : ¬ tok = b!"x-compress" := fun e => h2 e.symm
        by_cases h3 : b!"compress" = tok
        · simp [← h3, GoMap.get?_set]
        · simp [h2, h2', h3, GoMap.get?_set]
    · simp only [if_neg h1, if_neg h1', GoMap.get?_set]
      by_cases h3 : c.token = tok
      · simp [h3]
      · simp [h1, h1', h3]

private theorem get?_managerAfter (cs : List Coding) (tok : Bytes) :
    GoMap.get? (managerAfter cs) tok = inCharge cs tok := by
  unfold managerAfter inCharge
  rw [← cs.reverse_reverse]
  generalize cs.reverse = r
  rw [List.foldl_reverse, List.reverse_reverse]
  induction r with
  | nil => rfl
  | cons c r ih =>
    rw [List.foldr_cons, get?_addCoding, ih, List.find?_cons]
    by_cases h : answersTo c tok <;> simp [h]

/-- C67: `identity` and empty input are passed unchanged, by both directions. -/
theorem C67_identity (cs : List Coding) (tok input : Bytes) (h : tok = b!"identity" ∨ input = []) :
    (managerAfter cs).encode tok input = .ok input ∧ (managerAfter cs).decode tok input = .ok input := by
  have : tok = b!"identity" ∨ input.length = 0 := h.imp id (by rintro rfl; rfl)
  exact ⟨if_pos this, if_pos this⟩

theorem lift_eq (x : Except Nat Bytes) : Coding.lift x = x.mapError .coding := by cases x <;> rfl

/-- C67: otherwise the coding registered last for the token does the work, and its errors are the ones returned; a token nobody answers to is an error. -/
theorem C67_dispatch (cs : List Coding) (tok input : Bytes) (h1 : tok ≠ b!"identity") (h2 : input ≠ []) :
    (managerAfter cs).encode tok input =
        (match inCharge cs tok with | none => .error .unknownToken | some c => (c.encode input).mapError .coding) ∧
      (managerAfter cs).decode tok input =
        (match inCharge cs tok with | none => .error .unknownToken | some c => (c.decode input).mapError .coding) := by
  have : ¬ (tok = b!"identity" ∨ input.length = 0) := by simp [h1, h2]
  simp only [Coding.Manager.encode, Coding.Manager.decode, if_neg this, get?_managerAfter]
  cases inCharge cs tok <;> simp [lift_eq]

/-- Gzip, for instance, is found under both of its names. -/
example (c : Coding) (h : c.token = b!"gzip") :
    inCharge [c] b!"gzip" = some c ∧ inCharge [c] b!"x-gzip" = some c := by
  simp [inCharge, answersTo, h]

/-- C67: what has been encoded is restored by decoding with the same token, provided that every registered coding is
lossless and does not make non-empty input empty. -/
theorem C67_round_trip (cs : List Coding) (tok input out : Bytes)
    (hc : ∀ c ∈ cs, ∀ x y, x ≠ [] → c.encode x = .ok y → y ≠ [] ∧ c.decode y = .ok x)
    (h : (managerAfter cs).encode tok input = .ok out) : (managerAfter cs).decode tok out = .ok input := by
  by_cases hi : tok = b!"identity" ∨ input = []
  · rw [(C67_identity cs tok input hi).1] at h
    injection h with h; subst h
    exact (C67_identity cs tok input hi).2
  · have h1 : tok ≠ b!"identity" := fun e => hi (.inl e)
    have h2 : input ≠ [] := fun e => hi (.inr e)
    rw [(C67_dispatch cs tok input h1 h2).1] at h
    cases hch : inCharge cs tok with
    | none => rw [hch] at h; simp at h
    | some c =>
      rw [hch] at h
      simp only at h
      have hm : c ∈ cs := by
        have := List.mem_of_find?_eq_some hch
        simpa using this
      cases he : c.encode input with
      | error n => rw [he] at h; cases h
      | ok y =>
        rw [he] at h
        cases h
        obtain ⟨hy, hd⟩ := hc c hm _ _ h2 he
        rw [(C67_dispatch cs tok out h1 hy).2, hch]
        simp [hd, Except.mapError]

/-- A coding that meets the hypothesis. -/
example : ∀ x y : Bytes, x ≠ [] → (Except.ok (1 :: x) : Except Nat Bytes) = .ok y →
    y ≠ [] ∧ (fun z : Bytes => (Except.ok z.tail : Except Nat Bytes)) y = .ok x := by
  intro x y _ h
  injection h with h; subst h
  exact ⟨by simp, rfl⟩

end Indigo.Props
