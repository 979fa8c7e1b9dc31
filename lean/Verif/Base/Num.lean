/-
Formatting of numbers as the Go package `strconv` does it.
-/
import Verif.Base.Bytes

namespace Indigo

/-- Digit `0`-`9`, `a`-`f`. -/
def digitByte (d : Nat) : Byte := if d < 10 then UInt8.ofNat (48 + d) else UInt8.ofNat (87 + d)

/-- Digits of `n` in base `b`; every division shortens the number, so that `n + 1` steps are enough. -/
def digitsAux (b : Nat) : Nat → Nat → Bytes
  | 0, _ => []
  | fuel + 1, n => if n < b then [digitByte n] else digitsAux b fuel (n / b) ++ [digitByte (n % b)]

/-- `strconv.AppendUint(nil, n, 10)`. -/
def decBytes (n : Nat) : Bytes := digitsAux 10 (n + 1) n

/-- `strconv.AppendUint(nil, n, 16)`. -/
def hexBytes (n : Nat) : Bytes := digitsAux 16 (n + 1) n

/-- `strconv.AppendInt(nil, n, 10)`, `strconv.Itoa`. -/
def intBytes (n : Int) : Bytes := if n < 0 then 45 :: decBytes n.natAbs else decBytes n.natAbs

theorem digitsAux_mono (b : Nat) (hb : 2 ≤ b) : ∀ (fuel fuel' n : Nat), n < fuel → n < fuel' →
    digitsAux b fuel n = digitsAux b fuel' n := by
  intro fuel
  induction fuel with
  | zero => intro fuel' n h; omega
  | succ fuel ih =>
    intro fuel' n h h'
    cases fuel' with
    | zero => omega
    | succ fuel' =>
      simp only [digitsAux]
      split
      · rfl
      · have : n / b < n := Nat.div_lt_self (by omega) (by omega)
        rw [ih fuel' (n / b) (by omega) (by omega)]

theorem decBytes_lt {n : Nat} (h : n < 10) : decBytes n = [digitByte n] := by
  simp [decBytes, digitsAux, h]

theorem decBytes_ge {n : Nat} (h : 10 ≤ n) : decBytes n = decBytes (n / 10) ++ [digitByte (n % 10)] := by
  have : n / 10 < n := Nat.div_lt_self (by omega) (by omega)
  conv => lhs; simp only [decBytes, digitsAux]
  rw [if_neg (by omega), digitsAux_mono 10 (by omega) n (n / 10 + 1) (n / 10) (by omega) (by omega)]
  rfl

theorem hexBytes_lt {n : Nat} (h : n < 16) : hexBytes n = [digitByte n] := by
  simp [hexBytes, digitsAux, h]

theorem hexBytes_ge {n : Nat} (h : 16 ≤ n) : hexBytes n = hexBytes (n / 16) ++ [digitByte (n % 16)] := by
  have : n / 16 < n := Nat.div_lt_self (by omega) (by omega)
  conv => lhs; simp only [hexBytes, digitsAux]
  rw [if_neg (by omega), digitsAux_mono 16 (by omega) n (n / 16 + 1) (n / 16) (by omega) (by omega)]
  rfl

theorem hexBytes_ne (n : Nat) : hexBytes n ≠ [] := by
  by_cases h : n < 16
  · simp [hexBytes_lt h]
  · simp [hexBytes_ge (by omega : 16 ≤ n)]

theorem decBytes_ne (n : Nat) : decBytes n ≠ [] := by
  by_cases h : n < 10
  · simp [decBytes_lt h]
  · simp [decBytes_ge (by omega : 10 ≤ n)]

/-- Numbers below `16^k` have at most `k` hexadecimal digits. -/
theorem hexBytes_length (k : Nat) : ∀ n, n < 16 ^ (k + 1) → (hexBytes n).length ≤ k + 1 := by
  induction k with
  | zero => intro n h; rw [hexBytes_lt (by simpa using h)]; simp
  | succ k ih =>
    intro n h
    by_cases h16 : n < 16
    · rw [hexBytes_lt h16]; simp
    · rw [hexBytes_ge (by omega)]
      have : n / 16 < 16 ^ (k + 1) := by
        rw [Nat.div_lt_iff_lt_mul (by omega)]; rw [Nat.pow_succ] at h; exact h
      have := ih _ this
      simp; omega

theorem decBytes_digits (n : Nat) : ∀ c ∈ decBytes n, 48 ≤ c ∧ c ≤ 57 := by
  induction n using Nat.strongRecOn with
  | _ n ih =>
    have hd : ∀ d, d < 10 → 48 ≤ digitByte d ∧ digitByte d ≤ 57 := by
      decide
    by_cases h : n < 10
    · rw [decBytes_lt h]; simp; exact hd n h
    · rw [decBytes_ge (by omega)]
      intro c hc
      simp at hc
      rcases hc with hc | rfl
      · exact ih _ (Nat.div_lt_self (by omega) (by omega)) c hc
      · exact hd _ (Nat.mod_lt _ (by omega))

end Indigo
