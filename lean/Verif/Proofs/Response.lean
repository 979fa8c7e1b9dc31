/-
Rendering of responses and reading them back.
-/
import Verif.Model.Serializer
import Verif.Spec.Response

namespace Indigo.Spec

/-! ### The reader -/

theorem cutCRLF_line {l rest : Bytes} (h : 13 ∉ l) : cutCRLF (l ++ 13 :: 10 :: rest) = some (l, rest) := by
  induction l with
  | nil => simp [cutCRLF]
  | cons x xs ih =>
    simp at h
    have hx : ¬ x = 13 := fun e => h.1 e.symm
    simp [cutCRLF, hx, ih h.2]

/-- A header line. -/
def fieldLine (kv : Bytes × Bytes) : Bytes := kv.1 ++ b!": " ++ kv.2 ++ [13, 10]

theorem dropWhile_strip (v : Bytes) : stripOWS (32 :: v) = stripOWS v := by
  simp [stripOWS, List.dropWhile, isBlank]

theorem readFields_lines (fs : List (Bytes × Bytes)) (hok : ∀ kv ∈ fs, NameOK kv.1 ∧ NoBreak kv.2) (rest : Bytes) :
    ∀ n, fs.length < n → readFields n (fs.flatMap fieldLine ++ 13 :: 10 :: rest) =
      some (fs.map (fun kv => (kv.1, stripOWS kv.2)), rest) := by
  induction fs with
  | nil =>
    intro n hn
    obtain ⟨n, rfl⟩ := Nat.exists_eq_succ_of_ne_zero (n := n) (by omega)
    simp [readFields, cutCRLF]
  | cons kv fs ih =>
    intro n hn
    obtain ⟨n, rfl⟩ := Nat.exists_eq_succ_of_ne_zero (n := n) (by omega)
    obtain ⟨⟨⟨h1, h2⟩, h3⟩, h4, h5⟩ := hok kv (by simp)
    have heq : (kv :: fs).flatMap fieldLine ++ 13 :: 10 :: rest =
        (kv.1 ++ 58 :: 32 :: kv.2) ++ 13 :: 10 :: (fs.flatMap fieldLine ++ 13 :: 10 :: rest) := by
      simp [fieldLine]
    rw [heq]
    simp only [readFields]
    rw [cutCRLF_line (by simp [h1, h4])]
    simp only
    rw [if_neg (by simp), cut_append h3]
    simp only
    rw [ih (fun kv' h => hok kv' (by simp [h])) n (by simp at hn; omega)]
    simp [dropWhile_strip]

theorem decimal_append (a : Bytes) (c : Byte) : decimal (a ++ [c]) = 10 * decimal a + (c.toNat - 48) := by
  simp [decimal]

theorem decimal_decBytes (n : Nat) : decimal (decBytes n) = n := by
  have hd : ∀ d, d < 10 → (digitByte d).toNat - 48 = d := by decide
  induction n using Nat.strongRecOn with
  | _ n ih =>
    by_cases h : n < 10
    · rw [decBytes_lt h]; simp [decimal, hd n h]
    · rw [decBytes_ge (by omega), decimal_append, ih _ (Nat.div_lt_self (by omega) (by omega)),
        hd _ (Nat.mod_lt _ (by omega))]
      omega

theorem readDecimal_decBytes (n : Nat) : readDecimal (decBytes n) = some n := by
  unfold readDecimal
  have := decBytes_digits n
  rw [if_pos ⟨decBytes_ne n, by simp [isDigit]; exact fun c hc => ⟨(this c hc).1, (this c hc).2⟩⟩, decimal_decBytes]

theorem fields_length (fs : List (Bytes × Bytes)) : fs.length ≤ (fs.flatMap fieldLine).length := by
  induction fs with
  | nil => simp
  | cons kv fs ih => simp [fieldLine] at ih ⊢; omega

theorem readMsg_render {version reason rest : Bytes} {code : Nat} {fs : List (Bytes × Bytes)}
    (hv : version.take 5 = b!"HTTP/") (hv1 : 32 ∉ version) (hv2 : 13 ∉ version) (hr : 13 ∉ reason)
    (hok : ∀ kv ∈ fs, NameOK kv.1 ∧ NoBreak kv.2) :
    readMsg (version ++ [32] ++ decBytes code ++ [32] ++ reason ++ [13, 10] ++ fs.flatMap fieldLine ++ [13, 10] ++ rest) =
      some { version, code, reason, fields := fs.map (fun kv => (kv.1, stripOWS kv.2)), rest } := by
  have hdig := decBytes_digits code
  have hd : 13 ∉ decBytes code := fun h => by have := (hdig 13 h).1; simp at this
  have hd2 : 32 ∉ decBytes code := fun h => by have := (hdig 32 h).1; simp at this
  have heq : version ++ [32] ++ decBytes code ++ [32] ++ reason ++ [13, 10] ++ fs.flatMap fieldLine ++ [13, 10] ++ rest =
      (version ++ 32 :: (decBytes code ++ 32 :: reason)) ++ 13 :: 10 :: (fs.flatMap fieldLine ++ 13 :: 10 :: rest) := by
    simp
  have hlen : fs.length < (version ++ [32] ++ decBytes code ++ [32] ++ reason ++ [13, 10] ++ fs.flatMap fieldLine ++ [13, 10] ++ rest).length + 1 := by
    have := fields_length fs
    simp only [List.length_append]; omega
  unfold readMsg
  rw [readFields_lines_aux heq hv2 hd hr]
  simp only
  rw [cut_append hv1]
  simp only
  rw [cut_append hd2]
  simp only
  rw [if_pos hv, readDecimal_decBytes, readFields_lines fs hok rest _ hlen]
where
  readFields_lines_aux {version reason rest s : Bytes} {code : Nat}
      (heq : s = (version ++ 32 :: (decBytes code ++ 32 :: reason)) ++ 13 :: 10 :: rest)
      (hv2 : 13 ∉ version) (hd : 13 ∉ decBytes code) (hr : 13 ∉ reason) :
      cutCRLF s = some (version ++ 32 :: (decBytes code ++ 32 :: reason), rest) := by
    rw [heq, cutCRLF_line]
    simp [hv2, hd, hr]

/-! ### Set-Cookie -/

theorem splitSemi_noSemi {a : Bytes} (h : 59 ∉ a) : splitSemi a = [a] := by
  induction a with
  | nil => rfl
  | cons c cs ih =>
    simp at h
    have hc : ¬ c = 59 := fun e => h.1 e.symm
    simp [splitSemi, hc, ih h.2]

theorem splitSemi_append {a : Bytes} (h : 59 ∉ a) (b : Bytes) : splitSemi (a ++ 59 :: b) = a :: splitSemi b := by
  induction a with
  | nil => simp [splitSemi]
  | cons c cs ih =>
    simp at h
    have hc : ¬ c = 59 := fun e => h.1 e.symm
    simp [splitSemi, hc, ih h.2]

theorem splitSemi_space (b : Bytes) : ∃ t ts, splitSemi b = t :: ts ∧ splitSemi (32 :: b) = (32 :: t) :: ts := by
  cases h : splitSemi b with
  | nil =>
    exfalso
    cases b with
    | nil => simp [splitSemi] at h
    | cons c cs =>
      simp only [splitSemi] at h
      split at h
      · simp at h
      · split at h <;> simp at h
  | cons t ts => exact ⟨t, ts, rfl, by simp [splitSemi, h]⟩

theorem split_join : ∀ (ps : List Bytes), ps ≠ [] → (∀ p ∈ ps, 59 ∉ p) →
    (splitSemi (joinSemi ps)).map stripOWS = ps.map stripOWS := by
  intro ps
  induction ps with
  | nil => intro h; exact absurd rfl h
  | cons p ps ih =>
    intro _ hp
    cases ps with
    | nil => simp [joinSemi, splitSemi_noSemi (hp p (by simp))]
    | cons q qs =>
      have hj : joinSemi (p :: q :: qs) = p ++ 59 :: (32 :: joinSemi (q :: qs)) := by simp [joinSemi]
      rw [hj, splitSemi_append (hp p (by simp))]
      obtain ⟨t, ts, h1, h2⟩ := splitSemi_space (joinSemi (q :: qs))
      have := ih (by simp) (fun x hx => hp x (by simp [hx]))
      rw [h1] at this
      rw [h2]
      simp only [List.map_cons] at this ⊢
      rw [dropWhile_strip, this]

theorem stripOWS_id {s : Bytes} (h1 : ∀ c, s.head? = some c → isBlank c = false)
    (h2 : ∀ c, s.getLast? = some c → isBlank c = false) : stripOWS s = s := by
  have d1 : ∀ (l : Bytes), (∀ c, l.head? = some c → isBlank c = false) → l.dropWhile isBlank = l := by
    intro l hl
    cases l with
    | nil => rfl
    | cons x xs => simp [List.dropWhile, hl x rfl]
  unfold stripOWS
  rw [d1 s h1, d1 s.reverse (by intro c hc; rw [List.head?_reverse] at hc; exact h2 c hc), List.reverse_reverse]

theorem readAttr_some {k v : Bytes} (h : 61 ∉ k) : readAttr (k ++ 61 :: v) = (k, some v) := by
  simp [readAttr, cut_append h]

theorem readAttr_none {k : Bytes} (h : 61 ∉ k) : readAttr k = (k, none) := by
  have := (cut_none (c := 61) (xs := k)).2 h
  simp [readAttr, this]

/-- An attribute which can be read back. -/
structure AttrOK (a : Bytes × Option Bytes) : Prop where
  name : 59 ∉ a.1 ∧ 61 ∉ a.1
  head : ∀ x, a.1.head? = some x → isBlank x = false
  last : a.2 = none → ∀ x, a.1.getLast? = some x → isBlank x = false
  value : ∀ v, a.2 = some v → CookieText v

theorem attr_roundtrip {a : Bytes × Option Bytes} (h : AttrOK a) :
    59 ∉ renderAttr a ∧ readAttr (stripOWS (renderAttr a)) = a := by
  obtain ⟨k, v⟩ := a
  cases v with
  | none =>
    refine ⟨h.name.1, ?_⟩
    simp only [renderAttr]
    rw [stripOWS_id h.head (h.last rfl), readAttr_none h.name.2]
  | some v =>
    obtain ⟨v1, v2⟩ := h.value v rfl
    refine ⟨by simp [renderAttr, h.name.1, v1], ?_⟩
    simp only [renderAttr]
    rw [stripOWS_id, readAttr_some h.name.2]
    · intro c hc
      cases k with
      | nil => simp at hc; subst hc; decide
      | cons x xs => simp at hc; subst hc; exact h.head x rfl
    · intro c hc
      rw [List.getLast?_append] at hc
      cases v with
      | nil => simp at hc; subst hc; decide
      | cons x xs =>
        rw [List.getLast?_cons_cons] at hc
        cases hl : (x :: xs).getLast? with
        | none => simp at hl
        | some y =>
          rw [hl] at hc
          simp at hc; subst hc
          exact v2 y hl

theorem setCookie_roundtrip {as : List (Bytes × Option Bytes)} (hne : as ≠ []) (h : ∀ a ∈ as, AttrOK a) :
    readSetCookie (joinSemi (as.map renderAttr)) = as := by
  have h1 := split_join (as.map renderAttr) (by simpa using hne) (by
    intro p hp
    obtain ⟨a, ha, rfl⟩ := List.mem_map.1 hp
    exact (attr_roundtrip (h a ha)).1)
  have h2 : readSetCookie (joinSemi (as.map renderAttr)) =
      ((splitSemi (joinSemi (as.map renderAttr))).map stripOWS).map readAttr := by
    simp [readSetCookie, Function.comp_def]
  rw [h2, h1]
  simp only [List.map_map]
  calc as.map (readAttr ∘ stripOWS ∘ renderAttr) = as.map id := by
        apply List.map_congr_left
        intro a ha
        exact (attr_roundtrip (h a ha)).2
    _ = as := by simp

theorem maxAge_text (n : Nat) : CookieText (decBytes n) := by
  have := decBytes_digits n
  refine ⟨fun h => by have := (this 59 h).2; simp at this, ?_⟩
  intro c hc
  have hm := List.mem_of_getLast? hc
  have h2 := this c hm
  have : ∀ n : Fin 256, (48 : UInt8) ≤ UInt8.ofNat n.val ∧ UInt8.ofNat n.val ≤ 57 → isBlank (UInt8.ofNat n.val) = false := by
    decide +kernel
  have := this ⟨c.toNat, c.toNat_lt⟩
  simp only [UInt8.ofNat_toNat] at this
  exact this h2

/-- All attributes written for a proper cookie can be read back. -/
theorem writtenAttrs_ok {c : Cookie} (h : CookieOK c) : ∀ a ∈ (c.Name, some c.Value) :: writtenAttrs c, AttrOK a := by
  have mk : ∀ (k : Bytes) (v : Option Bytes), (59 ∉ k ∧ 61 ∉ k) → (∀ x, k.head? = some x → isBlank x = false) →
      (∀ x, k.getLast? = some x → isBlank x = false) → (∀ w, v = some w → CookieText w) → AttrOK (k, v) :=
    fun k v a b d e => ⟨a, b, fun _ => d, e⟩
  have main : ∀ a ∈ cookieAttrs c, (59 ∉ a.1 ∧ 61 ∉ a.1) ∧ (∀ x, a.1.head? = some x → isBlank x = false) ∧
      (∀ x, a.1.getLast? = some x → isBlank x = false) ∧ (∀ w, a.2 = some w → CookieText w) := by
    intro a ha
    unfold cookieAttrs at ha
    simp only [List.mem_append] at ha
    have one : ∀ (k : Bytes) (v : Option Bytes), a = (k, v) → (59 ∉ k ∧ 61 ∉ k) →
        (∀ x, k.head? = some x → isBlank x = false) → (∀ x, k.getLast? = some x → isBlank x = false) →
        (∀ w, v = some w → CookieText w) → (59 ∉ a.1 ∧ 61 ∉ a.1) ∧ (∀ x, a.1.head? = some x → isBlank x = false) ∧
      (∀ x, a.1.getLast? = some x → isBlank x = false) ∧ (∀ w, a.2 = some w → CookieText w) := by
      intro k v e h1 h2 h3 h4; subst e; exact ⟨h1, h2, h3, h4⟩
    have hl : ∀ (k : Bytes) y, k.head? = some y → isBlank y = false → ∀ x, k.head? = some x → isBlank x = false := by
      intro k y hk hy x hx; rw [hk] at hx; simp at hx; subst hx; exact hy
    have hll : ∀ (k : Bytes) y, k.getLast? = some y → isBlank y = false → ∀ x, k.getLast? = some x → isBlank x = false := by
      intro k y hk hy x hx; rw [hk] at hx; simp at hx; subst hx; exact hy
    rcases ha with (((((ha | ha) | ha) | ha) | ha) | ha) | ha
    · split at ha
      · simp at ha
      · simp at ha
        exact one _ _ ha (by decide) (hl _ 80 (by decide) (by decide)) (hll _ 104 (by decide) (by decide))
          (by intro w hw; simp at hw; subst hw; exact h.path)
    · split at ha
      · simp at ha
      · simp at ha
        exact one _ _ ha (by decide) (hl _ 68 (by decide) (by decide)) (hll _ 110 (by decide) (by decide))
          (by intro w hw; simp at hw; subst hw; exact h.domain)
    · split at ha
      · simp at ha
      · rename_i t ht
        simp at ha
        exact one _ _ ha (by decide) (hl _ 69 (by decide) (by decide)) (hll _ 115 (by decide) (by decide))
          (by intro w hw; simp at hw; subst hw; exact h.expires _ ht)
    · split at ha
      · simp at ha
      · simp at ha
        refine one _ _ ha (by decide) (hl _ 77 (by decide) (by decide)) (hll _ 101 (by decide) (by decide)) ?_
        intro w hw
        simp at hw; subst hw
        split
        · exact maxAge_text _
        · exact ⟨by decide, by decide⟩
    · split at ha
      · simp at ha
      · simp at ha
        exact one _ _ ha (by decide) (hl _ 83 (by decide) (by decide)) (hll _ 101 (by decide) (by decide))
          (by intro w hw; simp at hw; subst hw; exact h.sameSite)
    · split at ha
      · simp at ha
        exact one _ _ ha (by decide) (hl _ 83 (by decide) (by decide)) (hll _ 101 (by decide) (by decide))
          (by intro w hw; simp at hw)
      · simp at ha
    · split at ha
      · simp at ha
        exact one _ _ ha (by decide) (hl _ 72 (by decide) (by decide)) (hll _ 121 (by decide) (by decide))
          (by intro w hw; simp at hw)
      · simp at ha
  intro a ha
  rcases List.mem_cons.1 ha with rfl | ha
  · exact ⟨⟨h.name.1.1, h.name.2.1⟩, h.name.2.2, by simp, by intro v hv; simp at hv; subst hv; exact h.value⟩
  · unfold writtenAttrs at ha
    obtain ⟨b, hb, rfl⟩ := List.mem_map.1 ha
    obtain ⟨m1, m2, m3, m4⟩ := main b hb
    split
    · exact mk _ _ (by decide) (by intro x hx; simp at hx; subst hx; decide)
        (by intro x hx; simp at hx; subst hx; decide) m4
    · exact mk _ _ m1 m2 m3 m4

end Indigo.Spec
