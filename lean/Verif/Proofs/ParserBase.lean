/-
Basic lemmas about the parser model: jumps consume input, fuel is sufficient, special names.
-/
import Verif.Model.Parser

namespace Indigo.Parser

theorem valueLabel_cases (key : Bytes) : valueLabel key = .contentLength ∨ valueLabel key = .headerValue := by
  unfold valueLabel; split <;> simp

theorem valueLabel_ne (key : Bytes) : valueLabel key ≠ .method ∧ valueLabel key ≠ .path := by
  rcases valueLabel_cases key with h | h <;> rw [h] <;> simp

theorem clDigits_length (n : Int) (d : Bytes) : (clDigits n d).2.length ≤ d.length := by
  induction d generalizing n with
  | nil => simp [clDigits]
  | cons c cs ih =>
    simp only [clDigits]
    split
    · have := ih n; simp; omega
    · split
      · simp
      · have := ih (wrap64 (n * 10 + (c - 48).toNat)); simp; omega

/-- A request line is either good, or answered by an error, or makes the parser panic. -/
theorem requestLine_out (r : Request) (line : Bytes) :
    (requestLine r line).2 = none ∨ (requestLine r line).2 = some .panic ∨
      ∃ e, (requestLine r line).2 = some (.error e) := by
  unfold requestLine
  dsimp only
  repeat' split
  all_goals simp

theorem finishPath_goto {p : PState} {line rest : Bytes} {l p' d'}
    (h : finishPath p line rest = .goto l p' d') : d' = rest ∧ l = .headerKey := by
  unfold finishPath at h
  split at h
  · cases h
  · cases h; exact ⟨rfl, rfl⟩

/-- Every jump consumes input. -/
theorem step_goto_length (F : Fold) {l : Label} {p : PState} {d : Bytes} {l' p' d'}
    (h : step F l p d = .goto l' p' d') : d'.length < d.length := by
  cases l <;> simp only [step] at h
  · unfold stepMethod at h
    split at h
    · split at h <;> cases h
    · rename_i m rest hc
      have := cut_length hc
      split at h
      · cases h
      · unfold finishMethod at h
        dsimp only at h
        repeat' split at h
        all_goals first | (cases h; done) | (cases h; exact this)
  · unfold stepPath at h
    split at h
    · split at h <;> cases h
    · rename_i m rest hc
      have := cut_length hc
      split at h
      · cases h
      · have h2 := (finishPath_goto h).1
        subst h2; exact this
  · unfold stepHeaderKey at h
    split at h
    · cases h
    · rename_i c cs
      split at h
      · cases h
      · split at h
        · cases h; simp
        · split at h
          · split at h <;> cases h
          · rename_i k rest hc
            have := cut_length hc
            split at h
            · cases h
            · dsimp only at h
              repeat' split at h
              all_goals first | (cases h; done) | (cases h; exact this)
  · unfold stepContentLength at h
    have hl := clDigits_length p.contentLength d
    generalize hr : clDigits p.contentLength d = r at h hl
    obtain ⟨n, rest⟩ := r
    dsimp only at h
    split at h
    · cases h
    · rename_i c cs
      simp at hl
      repeat' split at h
      all_goals first | (cases h; done) | (cases h; omega)
  · unfold stepContentLengthCR at h
    split at h
    · cases h
    · split at h
      · cases h
      · cases h; simp
  · unfold stepHeaderValue at h
    split at h
    · split at h
      · cases h
      · dsimp only at h; split at h <;> cases h
    · rename_i m rest hc
      have := cut_length hc
      split at h
      · cases h
      · dsimp only at h
        repeat' split at h
        all_goals first | (cases h; done) | (cases h; exact this)
  · unfold stepCRLFCR at h
    split at h
    · cases h
    · split at h <;> cases h

theorem run_fuel (F : Fold) : ∀ (n m : Nat) (l : Label) (p : PState) (d : Bytes),
    d.length < n → d.length < m → run F n l p d = run F m l p d := by
  intro n
  induction n with
  | zero => intro m l p d h; omega
  | succ n ih =>
    intro m l p d h1 h2
    cases m with
    | zero => omega
    | succ m =>
      simp only [run]
      cases hs : step F l p d with
      | ret p r => rfl
      | goto l' p' d' =>
        have := step_goto_length F hs
        exact ih m l' p' d' (by omega) (by omega)

theorem run_isSome (F : Fold) : ∀ (n : Nat) (l : Label) (p : PState) (d : Bytes),
    d.length < n → (run F n l p d).isSome := by
  intro n
  induction n with
  | zero => intro l p d h; omega
  | succ n ih =>
    intro l p d h1
    simp only [run]
    cases hs : step F l p d with
    | ret p r => rfl
    | goto l' p' d' =>
      have := step_goto_length F hs
      exact ih l' p' d' (by omega)

/-- Execution from a label without fuel. -/
def exec (F : Fold) (l : Label) (p : PState) (d : Bytes) : PState × PRes :=
  (run F (d.length + 1) l p d).getD (p, .panic)

theorem exec_eq (F : Fold) (l : Label) (p : PState) (d : Bytes) :
    exec F l p d = match step F l p d with
      | .ret p r => (p, r)
      | .goto l p d => exec F l p d := by
  unfold exec
  simp only [run]
  cases hs : step F l p d with
  | ret p r => rfl
  | goto l' p' d' =>
    have := step_goto_length F hs
    dsimp only
    have h1 := run_isSome F d.length l' p' d' this
    rw [run_fuel F d.length (d'.length + 1) l' p' d' this (by omega)]
    rw [run_fuel F d.length (d'.length + 1) l' p' d' this (by omega)] at h1
    obtain ⟨x, hx⟩ := Option.isSome_iff_exists.1 h1
    rw [hx]; simp only [run] at hx; rw [hx]; rfl

theorem exec_ret {F : Fold} {l : Label} {p : PState} {d : Bytes} {p' r} (h : step F l p d = .ret p' r) :
    exec F l p d = (p', r) := by rw [exec_eq, h]

theorem exec_goto {F : Fold} {l : Label} {p : PState} {d : Bytes} {l' p' d'}
    (h : step F l p d = .goto l' p' d') : exec F l p d = exec F l' p' d' := by rw [exec_eq, h]

theorem parse_eq_exec (F : Fold) (p : PState) (d : Bytes) : parse F p d = exec F p.state p d := rfl

/-- The model never runs out of fuel. -/
theorem parse_total (F : Fold) (p : PState) (d : Bytes) : (parse? F p d).isSome :=
  run_isSome F _ _ _ _ (Nat.lt_succ_self _)

/-- Induction along the jumps of one `Parse` call. -/
theorem exec_induct (F : Fold) {motive : Label → PState → Bytes → Prop}
    (h : ∀ l p d, (∀ l' p' d', step F l p d = .goto l' p' d' → motive l' p' d') → motive l p d) :
    ∀ l p d, motive l p d := by
  intro l p d
  induction hn : d.length using Nat.strongRecOn generalizing l p d with
  | ind n ih =>
    apply h
    intro l' p' d' hs
    have := step_goto_length F hs
    exact ih d'.length (by omega) l' p' d' rfl

/-! ### Special names -/

theorem byte_ext_bits {x y : Byte}
    (h : ∀ i, i < 8 → x.toBitVec.getLsbD i = y.toBitVec.getLsbD i) : x = y := by
  apply UInt8.toBitVec_inj.1
  apply BitVec.eq_of_getLsbD_eq
  exact h

theorem encodeU64_inj {a b c d e f g h a' b' c' d' e' f' g' h' : Byte}
    (H : encodeU64 a b c d e f g h = encodeU64 a' b' c' d' e' f' g' h') :
    a = a' ∧ b = b' ∧ c = c' ∧ d = d' ∧ e = e' ∧ f = f' ∧ g = g' ∧ h = h' := by
  have key : ∀ i, (encodeU64 a b c d e f g h).toBitVec.getLsbD i =
      (encodeU64 a' b' c' d' e' f' g' h').toBitVec.getLsbD i := fun i => by rw [H]
  refine ⟨byte_ext_bits ?_, byte_ext_bits ?_, byte_ext_bits ?_, byte_ext_bits ?_, byte_ext_bits ?_, byte_ext_bits ?_, byte_ext_bits ?_, byte_ext_bits ?_⟩
  · intro i hi
    have := key (0 + i)
    rcases i with _|_|_|_|_|_|_|_|i <;> first | omega | skip
    all_goals simpa [encodeU64, BitVec.getLsbD_shiftLeft] using this
  · intro i hi
    have := key (8 + i)
    rcases i with _|_|_|_|_|_|_|_|i <;> first | omega | skip
    all_goals simpa [encodeU64, BitVec.getLsbD_shiftLeft] using this
  · intro i hi
    have := key (16 + i)
    rcases i with _|_|_|_|_|_|_|_|i <;> first | omega | skip
    all_goals simpa [encodeU64, BitVec.getLsbD_shiftLeft] using this
  · intro i hi
    have := key (24 + i)
    rcases i with _|_|_|_|_|_|_|_|i <;> first | omega | skip
    all_goals simpa [encodeU64, BitVec.getLsbD_shiftLeft] using this
  · intro i hi
    have := key (32 + i)
    rcases i with _|_|_|_|_|_|_|_|i <;> first | omega | skip
    all_goals simpa [encodeU64, BitVec.getLsbD_shiftLeft] using this
  · intro i hi
    have := key (40 + i)
    rcases i with _|_|_|_|_|_|_|_|i <;> first | omega | skip
    all_goals simpa [encodeU64, BitVec.getLsbD_shiftLeft] using this
  · intro i hi
    have := key (48 + i)
    rcases i with _|_|_|_|_|_|_|_|i <;> first | omega | skip
    all_goals simpa [encodeU64, BitVec.getLsbD_shiftLeft] using this
  · intro i hi
    have := key (56 + i)
    rcases i with _|_|_|_|_|_|_|_|i <;> first | omega | skip
    all_goals simpa [encodeU64, BitVec.getLsbD_shiftLeft] using this

theorem encodeU32_inj {a b c d a' b' c' d' : Byte}
    (H : encodeU32 a b c d = encodeU32 a' b' c' d') :
    a = a' ∧ b = b' ∧ c = c' ∧ d = d' := by
  have key : ∀ i, (encodeU32 a b c d).toBitVec.getLsbD i =
      (encodeU32 a' b' c' d').toBitVec.getLsbD i := fun i => by rw [H]
  refine ⟨byte_ext_bits ?_, byte_ext_bits ?_, byte_ext_bits ?_, byte_ext_bits ?_⟩
  · intro i hi
    have := key (0 + i)
    rcases i with _|_|_|_|_|_|_|_|i <;> first | omega | skip
    all_goals simpa [encodeU32, BitVec.getLsbD_shiftLeft] using this
  · intro i hi
    have := key (8 + i)
    rcases i with _|_|_|_|_|_|_|_|i <;> first | omega | skip
    all_goals simpa [encodeU32, BitVec.getLsbD_shiftLeft] using this
  · intro i hi
    have := key (16 + i)
    rcases i with _|_|_|_|_|_|_|_|i <;> first | omega | skip
    all_goals simpa [encodeU32, BitVec.getLsbD_shiftLeft] using this
  · intro i hi
    have := key (24 + i)
    rcases i with _|_|_|_|_|_|_|_|i <;> first | omega | skip
    all_goals simpa [encodeU32, BitVec.getLsbD_shiftLeft] using this

theorem encodeU16_inj {a b a' b' : Byte}
    (H : encodeU16 a b = encodeU16 a' b') :
    a = a' ∧ b = b' := by
  have key : ∀ i, (encodeU16 a b).toBitVec.getLsbD i =
      (encodeU16 a' b').toBitVec.getLsbD i := fun i => by rw [H]
  refine ⟨byte_ext_bits ?_, byte_ext_bits ?_⟩
  · intro i hi
    have := key (0 + i)
    rcases i with _|_|_|_|_|_|_|_|i <;> first | omega | skip
    all_goals simpa [encodeU16, BitVec.getLsbD_shiftLeft] using this
  · intro i hi
    have := key (8 + i)
    rcases i with _|_|_|_|_|_|_|_|i <;> first | omega | skip
    all_goals simpa [encodeU16, BitVec.getLsbD_shiftLeft] using this

/-- `key` equals `name` when bit 0x20 of every byte of `key` is set. -/
def named (name key : Bytes) : Bool := key.map or20 == name

theorem isContentLengthKey_eq (key : Bytes) : isContentLengthKey key = named b!"content-length" key := by
  rw [Bool.eq_iff_iff]
  unfold isContentLengthKey named
  split
  · simp only [Bool.and_eq_true, beq_iff_eq, List.map_cons, List.map_nil]
    constructor
    · rintro ⟨h1, h2⟩
      have h1 := encodeU64_inj h1
      have h2 := encodeU64_inj h2
      simp only [← h1, ← h2]
    · intro h
      simp only [List.cons.injEq] at h
      simp only [h]; decide
  · rename_i hne
    constructor
    · intro h; cases h
    · intro h
      simp [List.map_eq_cons_iff] at h
      obtain ⟨_, _, rfl, _, _, _, rfl, _, _, _, rfl, _, _, _, rfl, _, _, _, rfl, _, _, _, rfl, _, _, _, rfl, _, _, _, rfl, _, _, _, rfl, _, _, _, rfl, _, _, _, rfl, _, _, _, rfl, _, _, _, rfl, _, _, rfl, _⟩ := h
      exact (hne _ _ _ _ _ _ _ _ _ _ _ _ _ _ rfl).elim

theorem isUpgradeKey_eq (key : Bytes) : isUpgradeKey key = named b!"upgrade" key := by
  rw [Bool.eq_iff_iff]
  unfold isUpgradeKey named
  split
  · simp only [beq_iff_eq, List.map_cons, List.map_nil]
    constructor
    · intro h1
      have h1 := encodeU64_inj h1
      simp only [h1]
    · intro h
      simp only [List.cons.injEq] at h
      simp only [h]; decide
  · rename_i hne
    constructor
    · intro h; cases h
    · intro h
      simp [List.map_eq_cons_iff] at h
      obtain ⟨_, _, rfl, _, _, _, rfl, _, _, _, rfl, _, _, _, rfl, _, _, _, rfl, _, _, _, rfl, _, _, rfl, _⟩ := h
      exact (hne _ _ _ _ _ _ _ rfl).elim

theorem isTrailerKey_eq (key : Bytes) : isTrailerKey key = named b!"trailer" key := by
  rw [Bool.eq_iff_iff]
  unfold isTrailerKey named
  split
  · simp only [beq_iff_eq, List.map_cons, List.map_nil]
    constructor
    · intro h1
      have h1 := encodeU64_inj h1
      simp only [h1]
    · intro h
      simp only [List.cons.injEq] at h
      simp only [h]; decide
  · rename_i hne
    constructor
    · intro h; cases h
    · intro h
      simp [List.map_eq_cons_iff] at h
      obtain ⟨_, _, rfl, _, _, _, rfl, _, _, _, rfl, _, _, _, rfl, _, _, _, rfl, _, _, _, rfl, _, _, rfl, _⟩ := h
      exact (hne _ _ _ _ _ _ _ rfl).elim

theorem isConnectionKey_eq (key : Bytes) : isConnectionKey key = named b!"connection" key := by
  rw [Bool.eq_iff_iff]
  unfold isConnectionKey named
  split
  · simp only [Bool.and_eq_true, beq_iff_eq, List.map_cons, List.map_nil]
    constructor
    · rintro ⟨h1, h2⟩
      have h1 := encodeU64_inj h1
      have h2 := encodeU16_inj h2
      simp only [← h1, ← h2]
    · intro h
      simp only [List.cons.injEq] at h
      simp only [h]; decide
  · rename_i hne
    constructor
    · intro h; cases h
    · intro h
      simp [List.map_eq_cons_iff] at h
      obtain ⟨_, _, rfl, _, _, _, rfl, _, _, _, rfl, _, _, _, rfl, _, _, _, rfl, _, _, _, rfl, _, _, _, rfl, _, _, _, rfl, _, _, _, rfl, _, _, rfl, _⟩ := h
      exact (hne _ _ _ _ _ _ _ _ _ _ rfl).elim

theorem isContentTypeKey_eq (key : Bytes) : isContentTypeKey key = named b!"content-type" key := by
  rw [Bool.eq_iff_iff]
  unfold isContentTypeKey named
  split
  · simp only [Bool.and_eq_true, beq_iff_eq, List.map_cons, List.map_nil]
    constructor
    · rintro ⟨h1, h2⟩
      have h1 := encodeU64_inj h1
      have h2 := encodeU32_inj h2
      simp only [← h1, ← h2]
    · intro h
      simp only [List.cons.injEq] at h
      simp only [h]; decide
  · rename_i hne
    constructor
    · intro h; cases h
    · intro h
      simp [List.map_eq_cons_iff] at h
      obtain ⟨_, _, rfl, _, _, _, rfl, _, _, _, rfl, _, _, _, rfl, _, _, _, rfl, _, _, _, rfl, _, _, _, rfl, _, _, _, rfl, _, _, _, rfl, _, _, _, rfl, _, _, _, rfl, _, _, rfl, _⟩ := h
      exact (hne _ _ _ _ _ _ _ _ _ _ _ _ rfl).elim

theorem isContentEncodingKey_eq (key : Bytes) : isContentEncodingKey key = named b!"content-encoding" key := by
  rw [Bool.eq_iff_iff]
  unfold isContentEncodingKey named
  split
  · simp only [Bool.and_eq_true, beq_iff_eq, List.map_cons, List.map_nil]
    constructor
    · rintro ⟨h1, h2⟩
      have h1 := encodeU64_inj h1
      have h2 := encodeU64_inj h2
      simp only [← h1, ← h2]
    · intro h
      simp only [List.cons.injEq] at h
      simp only [h]; decide
  · rename_i hne
    constructor
    · intro h; cases h
    · intro h
      simp [List.map_eq_cons_iff] at h
      obtain ⟨_, _, rfl, _, _, _, rfl, _, _, _, rfl, _, _, _, rfl, _, _, _, rfl, _, _, _, rfl, _, _, _, rfl, _, _, _, rfl, _, _, _, rfl, _, _, _, rfl, _, _, _, rfl, _, _, _, rfl, _, _, _, rfl, _, _, _, rfl, _, _, _, rfl, _, _, rfl, _⟩ := h
      exact (hne _ _ _ _ _ _ _ _ _ _ _ _ _ _ _ _ rfl).elim

theorem isTransferEncodingKey_eq (key : Bytes) : isTransferEncodingKey key = named b!"transfer-encoding" key := by
  rw [Bool.eq_iff_iff]
  unfold isTransferEncodingKey named
  split
  · simp only [Bool.and_eq_true, beq_iff_eq, List.map_cons, List.map_nil]
    constructor
    · rintro ⟨⟨h1, h2⟩, h3⟩
      have h1 := encodeU64_inj h1
      have h2 := encodeU64_inj h2
      simp only [← h1, ← h2, h3]
    · intro h
      simp only [List.cons.injEq] at h
      simp only [h]; decide
  · rename_i hne
    constructor
    · intro h; cases h
    · intro h
      simp [List.map_eq_cons_iff] at h
      obtain ⟨_, _, rfl, _, _, _, rfl, _, _, _, rfl, _, _, _, rfl, _, _, _, rfl, _, _, _, rfl, _, _, _, rfl, _, _, _, rfl, _, _, _, rfl, _, _, _, rfl, _, _, _, rfl, _, _, _, rfl, _, _, _, rfl, _, _, _, rfl, _, _, _, rfl, _, _, _, rfl, _, _, rfl, _⟩ := h
      exact (hne _ _ _ _ _ _ _ _ _ _ _ _ _ _ _ _ _ rfl).elim

/-- On names without CR, setting bit 0x20 is as good as lower-casing. -/
theorem or20_eq_iff (c : Byte) (t : Byte) (ht : (97 ≤ t ∧ t ≤ 122) ∨ t = 45) (hc : c ≠ CR) :
    or20 c = t ↔ lowerByte c = t := by
  have : ∀ c : Byte, c ≠ CR → ∀ t : Byte, ((97 ≤ t ∧ t ≤ 122) ∨ t = 45) → (or20 c = t ↔ lowerByte c = t) := by
    apply byte_forall
    have : ∀ n : Fin 256, UInt8.ofNat n.val ≠ CR →
        or20 (UInt8.ofNat n.val) = lowerByte (UInt8.ofNat n.val) ∨
        (¬ ((97 ≤ or20 (UInt8.ofNat n.val) ∧ or20 (UInt8.ofNat n.val) ≤ 122) ∨ or20 (UInt8.ofNat n.val) = 45) ∧
         ¬ ((97 ≤ lowerByte (UInt8.ofNat n.val) ∧ lowerByte (UInt8.ofNat n.val) ≤ 122) ∨ lowerByte (UInt8.ofNat n.val) = 45)) := by
      decide +kernel
    intro n hn t ht
    rcases this n hn with h | ⟨h1, h2⟩
    · rw [h]
    · constructor
      · intro h; rw [h] at h1; exact absurd ht h1
      · intro h; rw [h] at h2; exact absurd ht h2
  exact this c hc t ht

theorem named_eq_lower {name key : Bytes} (hn : ∀ t ∈ name, (97 ≤ t ∧ t ≤ 122) ∨ t = 45)
    (hk : CR ∉ key) : named name key = (lower key == name) := by
  rw [Bool.eq_iff_iff]
  unfold named lower
  simp only [beq_iff_eq]
  induction key generalizing name with
  | nil => simp
  | cons c cs ih =>
    cases name with
    | nil => simp
    | cons t ts =>
      simp only [List.map_cons, List.cons.injEq]
      simp at hk
      rw [or20_eq_iff c t (hn t (by simp)) (fun h => hk.1 h.symm),
        ih (fun t ht => hn t (by simp [ht])) hk.2]

end Indigo.Parser
