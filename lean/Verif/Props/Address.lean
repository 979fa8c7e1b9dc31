/-
C43: path normalisation; C58: address normalisation.
-/
import Verif.Model.Address

namespace Indigo.Props

/-! ### Paths -/

private theorem loop_slashes (q : Bytes) (c : Byte) (n : Nat) (hq : 2 ≤ q.length) (hc : c ≠ 47) :
    ∀ m, m ≤ n → UriNormalize.loop (q ++ c :: List.replicate n 47) (q.length + m) = q ++ [c] := by
  intro m
  obtain ⟨l, hl⟩ : ∃ l, q.length = l + 2 := ⟨q.length - 2, by omega⟩
  induction m with
  | zero =>
    intro _
    have : (q ++ c :: List.replicate n 47).getD (l + 2) 0 = c := by
      simp [List.getD_eq_getElem?_getD, ← hl]
    rw [Nat.add_zero, hl, UriNormalize.loop, this, if_pos (by simpa using hc)]
    rw [show l + 3 = q.length + 1 by omega, List.take_append,
      List.take_of_length_le (i := q.length + 1) (l := q) (by omega)]
    simp
  | succ m ih =>
    intro hm
    have : (q ++ c :: List.replicate n 47).getD (l + m + 1 + 2) 0 = 47 := by
      rw [show l + m + 1 + 2 = q.length + (m + 1) by omega, List.getD_eq_getElem?_getD,
        List.getElem?_append_right (by omega)]
      simp [show m < n by omega]
    rw [show q.length + (m + 1) = l + m + 1 + 2 by omega, UriNormalize.loop, this, if_neg (by simp)]
    rw [show l + m + 1 + 1 = q.length + m by omega]
    exact ih (by omega)

/-- C43, the part that holds: trailing slashes are insignificant for paths of at least three bytes (before
them): such a path with any number of slashes added has the path itself as its normal form. -/
theorem C43_trailing_slashes_partial (q : Bytes) (c : Byte) (n : Nat) (hq : 2 ≤ q.length) (hc : c ≠ SLASH) :
    UriNormalize.normalize (q ++ [c] ++ List.replicate n SLASH) = q ++ [c] := by
  have := loop_slashes q c n hq hc n (Nat.le_refl n)
  simpa [UriNormalize.normalize] using this

example : UriNormalize.normalize b!"/users/42///" = b!"/users/42" := by decide

private theorem loop_all (p : Bytes) (h : ∀ c ∈ p.drop 2, c = 47) : ∀ i, i < p.length → UriNormalize.loop p i = p := by
  intro i
  induction i with
  | zero => intro _; rfl
  | succ i ih =>
    intro hi
    cases i with
    | zero => rfl
    | succ i =>
      have : p.getD (i + 2) 0 = 47 := by
        apply h
        rw [List.mem_iff_getElem?]
        refine ⟨i, ?_⟩
        rw [List.getElem?_drop, List.getD_eq_getElem?_getD, show 2 + i = i + 2 by omega]
        simp [hi]
      rw [UriNormalize.loop, this, if_neg (by simp)]
      exact ih (by omega)

/-- C43: what happens to all other paths: they are not changed at all. -/
theorem C43_short_paths_partial (p : Bytes) (h : ∀ c ∈ p.drop 2, c = SLASH) : UriNormalize.normalize p = p := by
  unfold UriNormalize.normalize
  cases p with
  | nil => rfl
  | cons c cs => exact loop_all _ h _ (by simp)

/-- Every path is of one of the two forms. -/
private theorem path_cases (p : Bytes) : (∀ c ∈ p.drop 2, c = SLASH) ∨
    ∃ q c n, p = q ++ [c] ++ List.replicate n SLASH ∧ 2 ≤ q.length ∧ c ≠ SLASH := by
  by_cases h : ∀ c ∈ p.drop 2, c = SLASH
  · exact .inl h
  · right
    have key : ∀ r : Bytes, ¬ (∀ c ∈ r, c = SLASH) → ∃ q c n, r = q ++ [c] ++ List.replicate n SLASH ∧ c ≠ SLASH := by
      intro r hr
      induction r with
      | nil => simp at hr
      | cons x xs ih =>
        by_cases hxs : ∀ c ∈ xs, c = SLASH
        · refine ⟨[], x, xs.length, ?_, ?_⟩
          · simp; exact List.eq_replicate_iff.2 ⟨rfl, hxs⟩
          · intro hx; exact hr (by intro c hc; simp at hc; exact hc.elim (fun e => e ▸ hx) (hxs c))
        · obtain ⟨q, c, n, h1, h2⟩ := ih hxs
          exact ⟨x :: q, c, n, by simp [h1], h2⟩
    obtain ⟨q, c, n, h1, h2⟩ := key _ h
    have hl : 2 ≤ p.length := by
      have := congrArg List.length h1
      simp at this; omega
    refine ⟨p.take 2 ++ q, c, n, ?_, ?_, h2⟩
    · have := List.take_append_drop 2 p
      rw [h1] at this
      exact this.symm.trans (by simp)
    · simp; omega

/-- C43: normalising is idempotent, for every path. -/
theorem C43_idempotent (p : Bytes) :
    UriNormalize.normalize (UriNormalize.normalize p) = UriNormalize.normalize p := by
  rcases path_cases p with h | ⟨q, c, n, rfl, h1, h2⟩
  · rw [C43_short_paths_partial p h, C43_short_paths_partial p h]
  · rw [C43_trailing_slashes_partial q c n h1 h2]
    have := C43_trailing_slashes_partial q c 0 h1 h2
    simpa using this

/-- C43: the root path is never changed, and nothing but trailing slashes is ever removed. -/
theorem C43_only_slashes_removed (p : Bytes) :
    UriNormalize.normalize [SLASH] = [SLASH] ∧
      ∃ n, p = UriNormalize.normalize p ++ List.replicate n SLASH := by
  refine ⟨by decide, ?_⟩
  rcases path_cases p with h | ⟨q, c, n, rfl, h1, h2⟩
  · exact ⟨0, by simp [C43_short_paths_partial p h]⟩
  · exact ⟨n, by rw [C43_trailing_slashes_partial q c n h1 h2]⟩

/-- C43 is false: `/a` and `/a/` have different normal forms. -/
theorem C43_one_letter_violation :
    ¬ ∀ (p : Bytes) (n : Nat), UriNormalize.normalize (p ++ List.replicate n SLASH) = UriNormalize.normalize p := by
  intro h
  have := h b!"/a" 1
  revert this
  decide

/-- C43 is false for the root path, too: `//` is not taken for `/`. -/
theorem C43_root_violation : UriNormalize.normalize b!"//" ≠ UriNormalize.normalize b!"/" := by decide

/-! ### Addresses -/

/-- An address `host:port` (or `host` alone): the host is what precedes the first colon. -/
def HasHost (addr : Bytes) : Prop := ∃ h : Byte, ∃ rest, addr = h :: rest ∧ h ≠ 58

/-- C58: an address with a host is not changed; otherwise the wildcard host is put in front of it. -/
theorem C58_normalize (addr : Bytes) :
    (HasHost addr → Address.normalize addr = addr) ∧
      (¬ HasHost addr → Address.normalize addr = b!"0.0.0.0" ++ addr) := by
  cases addr with
  | nil => exact ⟨fun ⟨_, _, h, _⟩ => by simp at h, fun _ => rfl⟩
  | cons c cs =>
    constructor
    · rintro ⟨h, rest, heq, hc⟩
      simp at heq
      obtain ⟨rfl, rfl⟩ := heq
      have : (Address.stripPort (c :: cs)).length ≠ 0 := by
        unfold Address.stripPort
        simp only [cut, if_neg hc]
        cases h : cut COLON cs <;> simp
      simp [Address.normalize, this]
    · intro h
      have hc : c = 58 := Decidable.byContradiction fun hc => h ⟨c, cs, rfl, hc⟩
      subst hc
      simp [Address.normalize, Address.stripPort, cut, Address.DefaultAddr]

example : HasHost b!"localhost:8080" ∧ ¬ HasHost b!":8080" :=
  ⟨⟨_, _, rfl, by decide⟩, by rintro ⟨h, r, he, hn⟩; simp at he; exact hn he.1.symm⟩

/-- C58: the result always has a host, and normalising is idempotent. -/
theorem C58_idempotent (addr : Bytes) :
    HasHost (Address.normalize addr) ∧ Address.normalize (Address.normalize addr) = Address.normalize addr := by
  have key : HasHost (Address.normalize addr) := by
    by_cases h : HasHost addr
    · rw [(C58_normalize addr).1 h]; exact h
    · rw [(C58_normalize addr).2 h]; exact ⟨48, _, rfl, by decide⟩
  exact ⟨key, (C58_normalize _).1 key⟩

/-- C58: the port is kept: what follows the host is the same before and after. -/
theorem C58_port_kept (host port : Bytes) (h : 58 ∉ host) :
    Address.normalize (host ++ 58 :: port) =
      (if host = [] then b!"0.0.0.0" else host) ++ 58 :: port := by
  cases host with
  | nil => exact (C58_normalize _).2 (by rintro ⟨h, r, he, hn⟩; simp at he; exact hn he.1.symm)
  | cons c cs =>
    exact (C58_normalize _).1 ⟨c, _, rfl, fun hc => h (by simp [hc])⟩

end Indigo.Props
