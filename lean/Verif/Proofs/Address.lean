/-
Hosts, ports and IP addresses.
-/
import Verif.Model.Address
import Verif.Spec.Address
import Verif.Proofs.Response

namespace Indigo.Address
open Indigo.Spec

theorem stripPort_host {host port : Bytes} (h : HostPort host port) : stripPort (host ++ port) = host := by
  rcases h.port with rfl | ⟨p, rfl⟩
  · simp [stripPort, cut_none.2 h.host]
  · simp [stripPort, cut_append h.host]

theorem normalize_host {host port : Bytes} (h : HostPort host port) (ne : host ≠ []) : normalize (host ++ port) = host ++ port := by
  unfold normalize
  rw [stripPort_host h, if_neg]
  intro e; exact ne (List.eq_nil_of_length_eq_zero e)

theorem longS_ascii (s : Bytes) (h : ∀ c ∈ s, c.toNat < 128) : longS s = s := by
  induction s with
  | nil => rfl
  | cons c cs ih =>
    have hc := h c (by simp)
    have := ih (fun x hx => h x (by simp [hx]))
    unfold longS
    split
    · rename_i heq; cases heq; simp at hc
    · rename_i heq; cases heq; rw [this]
    · rename_i heq; cases heq

/-- Octets, `n` with a dot behind them and a last one. -/
def Octets : Nat → Bytes → Prop
  | 0, s => Octet s
  | n + 1, s => ∃ a r, s = a ++ DOT :: r ∧ Octet a ∧ Octets n r

theorem octets_first : ∀ (n : Nat) (t : Bytes), Octets n t → ∃ a r, t = a ++ r ∧ Octet a ∧ (r = [] ∨ ∃ r', r = DOT :: r')
  | 0, t, h => ⟨t, [], by simp, h, .inl rfl⟩
  | _ + 1, _, ⟨a, r, e, h, _⟩ => ⟨a, DOT :: r, e, h, .inr ⟨r, rfl⟩⟩

theorem digit_dot {c : Byte} (h : isDigit c = true) : c ≠ DOT := by
  rintro rfl; revert h; decide

theorem split_digits {p s a r : Bytes} (hp : p.all isDigit = true) (e : p ++ s = a ++ r) (hr : r = [] ∨ ∃ r', r = DOT :: r') :
    ∃ q, a = p ++ q ∧ s = q ++ r := by
  rcases List.append_eq_append_iff.1 e with ⟨q, h1, h2⟩ | ⟨q, h1, h2⟩
  · exact ⟨q, h1, h2⟩
  · cases q with
    | nil => exact ⟨[], by simpa using h1.symm, by simpa using h2.symm⟩
    | cons x xs =>
      exfalso
      rcases hr with rfl | ⟨r', rfl⟩
      · simp at h2
      · simp only [List.cons_append, List.cons.injEq] at h2
        have : isDigit x = true := by
          have := List.all_eq_true.1 hp x (by rw [h1]; simp)
          exact this
        exact digit_dot this h2.1.symm

theorem octets_prefix {n : Nat} {p s : Bytes} (hp : p.all isDigit = true) (h : Octets n (p ++ s)) : ∃ q, Octet (p ++ q) ∧ (q = [] ∨ ∃ s', s = q ++ s') := by
  obtain ⟨a, r, e, ha, hr⟩ := octets_first n _ h
  obtain ⟨q, rfl, hs⟩ := split_digits hp e hr
  exact ⟨q, ha, .inr ⟨r, hs⟩⟩

theorem foldl_decimal_le (q : Bytes) : ∀ n : Nat, n ≤ q.foldl (fun n (c : Byte) => 10 * n + (c.toNat - 48)) n := by
  induction q with
  | nil => intro n; exact Nat.le_refl _
  | cons c cs ih => intro n; exact Nat.le_trans (by show n ≤ 10 * n + (c.toNat - 48); omega) (ih _)

theorem decimal_prefix_le (p q : Bytes) : decimal p ≤ decimal (p ++ q) := by
  unfold decimal
  rw [List.foldl_append]
  exact foldl_decimal_le q _

theorem digit_iff (c : Byte) : (48 ≤ c ∧ c ≤ 57) ↔ isDigit c = true := by simp [isDigit]

/-- What is known of the digits `p` of the octet being read. -/
structure Good (p : Bytes) : Prop where
  digits : p.all isDigit = true
  small : decimal p ≤ 255
  zero : p.head? = some 48 → p = [48]

theorem parse_iff (s : Bytes) : ∀ (n : Nat) (p : Bytes) (prev : Option Byte), n ≤ 3 → Good p →
    (p = [] ↔ (prev = none ∨ prev = some DOT)) → (p = [] → s = [] → n ≠ 0) →
    (parseIPv4 (decimal p) (3 - n) p.length prev s = true ↔ Octets n (p ++ s)) := by
  induction s with
  | nil =>
    intro n p prev hn hp hprev hne
    simp only [parseIPv4, List.append_nil]
    cases n with
    | zero =>
      have : p ≠ [] := fun e => hne e rfl rfl
      simp only [Octets]
      exact ⟨fun _ => ⟨this, hp.digits, hp.small, hp.zero⟩, fun _ => rfl⟩
    | succ n =>
      constructor
      · intro h; simp at h; omega
      · rintro ⟨a, r, e, -, -⟩
        have := List.all_eq_true.1 hp.digits DOT (by rw [e]; simp)
        exact absurd this (by decide)
  | cons c cs ih =>
    intro n p prev hn hp hprev hne
    simp only [parseIPv4]
    by_cases hc : 48 ≤ c ∧ c ≤ 57
    · rw [if_pos hc]
      have hd := (digit_iff c).1 hc
      have hall : (p ++ [c]).all isDigit = true := by rw [List.all_append, hp.digits]; simp [hd]
      have hass : p ++ c :: cs = (p ++ [c]) ++ cs := by simp
      by_cases hz : p.length = 1 ∧ decimal p = 0
      · rw [if_pos hz]
        constructor
        · intro h; cases h
        · intro h
          exfalso
          rw [hass] at h
          obtain ⟨q, ho, -⟩ := octets_prefix hall h
          obtain ⟨x, rfl⟩ : ∃ x, p = [x] := by
            match p, hz.1 with
            | [x], _ => exact ⟨x, rfl⟩
          have hx := List.all_eq_true.1 hp.digits x (by simp)
          have h0 : x.toNat - 48 = 0 := by have := hz.2; simp [decimal] at this; omega
          have hx48 : x = 48 := by
            have := (digit_iff x).2 hx
            apply UInt8.toNat_inj.1
            have h1 := UInt8.le_iff_toNat_le.1 this.1
            simp at h1 ⊢
            omega
          subst hx48
          have := ho.2.2.2 (by simp)
          simp at this
      · rw [if_neg hz]
        have hdec : decimal p * 10 + (c.toNat - 48) = decimal (p ++ [c]) := by rw [decimal_append]; omega
        rw [hdec]
        by_cases hb : 255 < decimal (p ++ [c])
        · rw [if_pos hb]
          constructor
          · intro h; cases h
          · intro h
            exfalso
            rw [hass] at h
            obtain ⟨q, ho, -⟩ := octets_prefix hall h
            have := decimal_prefix_le (p ++ [c]) q
            have := ho.2.2.1
            omega
        · rw [if_neg hb, hass]
          have := ih n (p ++ [c]) (some c) hn ⟨hall, by omega, ?_⟩ ?_ (by simp)
          · simpa using this
          · intro hh
            cases p with
            | nil => simp at hh ⊢; exact hh
            | cons x xs =>
              exfalso
              have hh' : x = 48 := by simpa using hh
              subst hh'
              have := hp.zero rfl
              rw [this] at hz
              exact hz (by decide)
          · simp only [List.append_eq_nil_iff, List.cons_ne_nil, and_false, false_iff, not_or]
            exact ⟨by simp, by simpa using digit_dot hd⟩
    · rw [if_neg hc]
      have hnd : isDigit c ≠ true := fun h => hc ((digit_iff c).2 h)
      by_cases hdot : c = DOT
      · rw [if_pos hdot]
        subst hdot
        have key : ∀ m, Octets (m + 1) (p ++ DOT :: cs) ↔ (Octet p ∧ Octets m cs) := by
          intro m
          constructor
          · rintro ⟨a, r, e, ha, hr⟩
            obtain ⟨q, rfl, hs⟩ := split_digits hp.digits e (.inr ⟨r, rfl⟩)
            cases q with
            | nil => simp at hs; subst hs; exact ⟨by simpa using ha, hr⟩
            | cons x xs =>
              exfalso
              simp only [List.cons_append, List.cons.injEq] at hs
              have := List.all_eq_true.1 ha.2.1 x (by simp)
              exact digit_dot this hs.1.symm
          · rintro ⟨h1, h2⟩; exact ⟨p, cs, rfl, h1, h2⟩
        have none0 : ¬ Octets 0 (p ++ DOT :: cs) := by
          intro h
          have := List.all_eq_true.1 h.2.1 DOT (by simp)
          exact absurd this (by decide)
        by_cases hb : prev = none ∨ cs = [] ∨ prev = some DOT
        · rw [if_pos hb]
          constructor
          · intro h; cases h
          · intro h
            exfalso
            cases n with
            | zero => exact none0 h
            | succ n =>
              obtain ⟨h1, h2⟩ := (key n).1 h
              rcases hb with hb | hb | hb
              · exact h1.1 (hprev.2 (.inl hb))
              · subst hb
                obtain ⟨a, r, e, ha, -⟩ := octets_first n _ h2
                have : a = [] := by simp at e; exact e.1
                exact ha.1 this
              · exact h1.1 (hprev.2 (.inr hb))
        · rw [if_neg hb]
          simp only [not_or] at hb
          cases n with
          | zero => rw [if_pos rfl]; exact ⟨fun h => (by cases h), fun h => absurd h none0⟩
          | succ n =>
            rw [if_neg (by omega), key n, show 3 - (n + 1) + 1 = 3 - n by omega]
            have hp0 : p ≠ [] := fun e => by
              rcases hprev.1 e with h | h
              · exact hb.1 h
              · exact hb.2.2 h
            have := ih n [] (some DOT) (by omega) ⟨rfl, by decide, by simp⟩ (by simp) (fun _ h => absurd h hb.2.1)
            have e : decimal ([] : Bytes) = 0 := rfl
            rw [e] at this
            simp only [List.length_nil, List.nil_append] at this
            rw [this]
            exact ⟨fun h => ⟨⟨hp0, hp.digits, hp.small, hp.zero⟩, h⟩, fun h => h.2⟩
      · rw [if_neg hdot]
        constructor
        · intro h; cases h
        · intro h
          exfalso
          obtain ⟨a, r, e, ha, hr⟩ := octets_first n _ h
          obtain ⟨q, rfl, hs⟩ := split_digits hp.digits e hr
          cases q with
          | nil =>
            rcases hr with rfl | ⟨r', rfl⟩
            · simp at hs
            · simp at hs; exact hdot hs.1
          | cons x xs =>
            simp only [List.cons_append, List.cons.injEq] at hs
            have := List.all_eq_true.1 ha.2.1 x (by simp)
            rw [← hs.1] at this
            exact hnd this

theorem isIP_iff {host port : Bytes} (h : HostPort host port) : isIP (host ++ port) = true ↔ IsIPv4 host := by
  unfold isIP
  rw [stripPort_host h]
  have := parse_iff host 3 [] none (Nat.le_refl _) ⟨rfl, by decide, by simp⟩ (by simp) (by simp)
  have e : decimal ([] : Bytes) = 0 := rfl
  rw [e] at this
  simp only [List.length_nil, List.nil_append, Nat.sub_self] at this
  rw [this]
  constructor
  · rintro ⟨a, _, rfl, ha, b, _, rfl, hb, c, d, rfl, hc, hd⟩
    exact ⟨a, b, c, d, ha, hb, hc, hd, rfl⟩
  · rintro ⟨a, b, c, d, ha, hb, hc, hd, rfl⟩
    exact ⟨a, _, rfl, ha, b, _, rfl, hb, c, d, rfl, hc, hd⟩

theorem isLocalhost_ascii {host port : Bytes} (h : HostPort host port) (ascii : ∀ c ∈ host, c.toNat < 128) :
    isLocalhost (host ++ port) = (lower host == b!"localhost") := by
  unfold isLocalhost
  rw [stripPort_host h, longS_ascii host ascii]

end Indigo.Address
