/-
C55: header value accessors.
-/
import Verif.Model.ValueAccessors
import Verif.Spec.Head

namespace Indigo.Props
open Indigo.Headers

/-- `value;k1=v1;k2=v2...` -/
def renderParams (ps : List (Bytes × Bytes)) : Bytes := ps.flatMap (fun p => b!";" ++ p.1 ++ b!"=" ++ p.2)

/-- A header value with its parameters. -/
def renderValue (v : Bytes) (ps : List (Bytes × Bytes)) : Bytes := v ++ renderParams ps

/-- Names contain neither `;` nor `=`, values no `;`. -/
def ValidParam (p : Bytes × Bytes) : Prop := 59 ∉ p.1 ∧ 61 ∉ p.1 ∧ 59 ∉ p.2

private theorem afterSub_skip (sub pre t : Bytes) (h : 59 ∉ pre) :
    afterSub (59 :: sub) (pre ++ t) = afterSub (59 :: sub) t := by
  induction pre with
  | nil => rfl
  | cons c cs ih =>
    simp at h
    rw [List.cons_append, afterSub, if_neg (by simp [List.isPrefixOf, h.1]), ih h.2]

private theorem prefix_key (key extra k v t : Bytes) (h1 : 61 ∉ key) (h2 : 61 ∉ k) (h3 : 59 ∉ extra)
    (ht : t = [] ∨ ∃ t', t = 59 :: t') :
    (key ++ 61 :: extra).isPrefixOf (k ++ 61 :: (v ++ t)) = true ↔ k = key ∧ extra <+: v := by
  rw [List.isPrefixOf_iff_prefix]
  constructor
  · rintro ⟨r, hr⟩
    have hc := congrArg (cut 61) hr
    rw [List.append_assoc, List.cons_append, cut_append h1, cut_append h2] at hc
    simp at hc
    obtain ⟨rfl, hc⟩ := hc
    refine ⟨rfl, ?_⟩
    rcases ht with rfl | ⟨t', rfl⟩
    · exact ⟨r, by simpa using hc⟩
    · rcases prefix_delim (c := 59) (d := extra) (a := v) (rest := t') ⟨r, hc⟩ with ⟨d', hd, _⟩ | hp
      · exact absurd (by rw [hd]; simp) h3
      · exact hp
  · rintro ⟨rfl, r, rfl⟩
    exact ⟨r ++ t, by simp⟩

private theorem render_head (ps : List (Bytes × Bytes)) :
    renderParams ps = [] ∨ ∃ t', renderParams ps = 59 :: t' := by
  cases ps with
  | nil => left; rfl
  | cons p ps => right; exact ⟨_, by simp [renderParams]; rfl⟩

private theorem paramEnd_render (v : Bytes) (ps : List (Bytes × Bytes)) (h : 59 ∉ v) :
    paramEnd (v ++ renderParams ps) = v := by
  unfold paramEnd
  rcases render_head ps with h0 | ⟨t', h0⟩
  · rw [h0, List.append_nil, cut_none.2 h]
  · rw [h0, cut_append h]

/-- The parameter searched for: the first one with the given name whose value starts in the given way. -/
private theorem getParam_render (v : Bytes) (ps : List (Bytes × Bytes)) (key extra or : Bytes)
    (hv : 59 ∉ v) (hps : ∀ p ∈ ps, ValidParam p) (h1 : 61 ∉ key) (h3 : 59 ∉ extra) :
    getParam (renderValue v ps) (b!";" ++ key ++ 61 :: extra) or =
      match ps.find? (fun p => p.1 = key ∧ extra.isPrefixOf p.2) with
      | some p => p.2.drop extra.length
      | none => or := by
  unfold getParam renderValue
  rw [show b!";" ++ key ++ 61 :: extra = 59 :: (key ++ 61 :: extra) by simp, afterSub_skip _ _ _ hv]
  induction ps with
  | nil => simp [renderParams, afterSub]
  | cons p ps ih =>
    obtain ⟨hk1, hk2, hk3⟩ := hps p (by simp)
    have hrest : ∀ q ∈ ps, ValidParam q := fun q hq => hps q (by simp [hq])
    have hr : renderParams (p :: ps) = 59 :: (p.1 ++ 61 :: (p.2 ++ renderParams ps)) := by
      simp [renderParams]
    rw [hr, afterSub]
    have hpre := prefix_key key extra p.1 p.2 (renderParams ps) h1 hk2 h3 (render_head ps)
    by_cases hm : p.1 = key ∧ extra <+: p.2
    · rw [if_pos (by simp [List.isPrefixOf]; simpa using hpre.2 hm)]
      obtain ⟨rfl, r, hr2⟩ := hm
      rw [List.find?_cons_of_pos (by simp [← hr2])]
      simp only
      rw [← hr2]
      have : (59 :: (p.1 ++ 61 :: (extra ++ r ++ renderParams ps))).drop (59 :: (p.1 ++ 61 :: extra)).length =
          r ++ renderParams ps := by
        rw [show (59 : Byte) :: (p.1 ++ 61 :: (extra ++ r ++ renderParams ps)) =
          (59 :: (p.1 ++ 61 :: extra)) ++ (r ++ renderParams ps) by simp, List.drop_left]
      rw [this, paramEnd_render r ps (fun hm => hk3 (by rw [← hr2]; simp [hm])), List.drop_left]
    · rw [if_neg (by simp [List.isPrefixOf]; intro h; exact hm (hpre.1 (by simpa using h)))]
      rw [List.find?_cons_of_neg (by simpa using hm), ← ih hrest]
      rw [show p.1 ++ 61 :: (p.2 ++ renderParams ps) = (p.1 ++ 61 :: p.2) ++ renderParams ps by simp,
        afterSub_skip _ _ _ (by simp [hk1, hk3])]

/-- C55: `ValueOf` gives the value, whatever parameters follow. -/
theorem C55_valueOf (v : Bytes) (ps : List (Bytes × Bytes)) (hv : 59 ∉ v) : valueOf (renderValue v ps) = v :=
  paramEnd_render v ps hv

/-- C55: `ParamOfOr` gives the value of the first parameter with the name, otherwise the alternative. -/
theorem C55_paramOf (v : Bytes) (ps : List (Bytes × Bytes)) (key or : Bytes) (hv : 59 ∉ v)
    (hps : ∀ p ∈ ps, ValidParam p) (hk : 61 ∉ key) :
    paramOfOr (renderValue v ps) key or = ((ps.find? (fun p => p.1 = key)).map (·.2)).getD or := by
  have := getParam_render v ps key [] or hv hps hk (by simp)
  unfold paramOfOr
  rw [show b!";" ++ key ++ b!"=" = b!";" ++ key ++ 61 :: [] from rfl, this]
  simp only [List.isPrefixOf_nil_left, and_true, List.length_nil, List.drop_zero]
  cases List.find? (fun p => decide (p.1 = key)) ps <;> rfl

example : renderValue b!"text/html" [(b!"charset", b!"utf-8"), (b!"q", b!"0.5")] = b!"text/html;charset=utf-8;q=0.5" ∧
    paramOf b!"text/html;charset=utf-8;q=0.5" b!"q" = b!"0.5" := by decide

/-- C55: `CharsetOf` gives the `charset` parameter, otherwise `iso-8859-1`. -/
theorem C55_charsetOf (v : Bytes) (ps : List (Bytes × Bytes)) (hv : 59 ∉ v) (hps : ∀ p ∈ ps, ValidParam p) :
    charsetOf (renderValue v ps) = ((ps.find? (fun p => p.1 = b!"charset")).map (·.2)).getD b!"iso-8859-1" :=
  C55_paramOf v ps b!"charset" b!"iso-8859-1" hv hps (by decide)

private theorem digitsValue_append (a : Nat) (xs : Bytes) (d : Nat) (hd : d < 10) (n : Nat)
    (h : digitsValue a xs = some n) : digitsValue a (xs ++ [digitByte d]) = some (n * 10 + d) := by
  have hdig : ∀ d, d < 10 → (48 ≤ digitByte d ∧ digitByte d ≤ 57) ∧ (digitByte d).toNat - 48 = d := by decide
  induction xs generalizing a with
  | nil =>
    simp [digitsValue] at h
    subst h
    rw [List.nil_append, digitsValue, if_pos (hdig d hd).1, (hdig d hd).2]; rfl
  | cons x xs ih =>
    rw [digitsValue] at h
    split at h
    · rename_i hx
      rw [List.cons_append, digitsValue, if_pos hx]
      exact ih _ h
    · simp at h

private theorem digitsValue_dec (n : Nat) : digitsValue 0 (decBytes n) = some n := by
  induction n using Nat.strongRecOn with
  | _ n ih =>
    by_cases h : n < 10
    · have : ∀ n, n < 10 → digitsValue 0 (decBytes n) = some n := by decide
      exact this n h
    · rw [decBytes_ge (by omega), digitsValue_append 0 _ _ (Nat.mod_lt _ (by omega)) _
        (ih (n / 10) (Nat.div_lt_self (by omega) (by omega)))]
      congr 1; omega

private theorem atoi_dec (n : Nat) (h : n < 2 ^ 63) : atoi (decBytes n) = some (n : Int) := by
  cases hd : decBytes n with
  | nil => exact absurd hd (decBytes_ne n)
  | cons c cs =>
    have hc := decBytes_digits n c (by rw [hd]; simp)
    have h45 : c ≠ 45 := by rintro rfl; exact absurd hc.1 (by decide)
    have h43 : c ≠ 43 := by rintro rfl; exact absurd hc.1 (by decide)
    have hv : digitsValue 0 (c :: cs) = some n := by rw [← hd]; exact digitsValue_dec n
    unfold atoi
    simp only [h45, h43, or_self, if_false, hv, h, if_true, reduceCtorEq]

/-- An optional sign and digits. -/
def IsNumber (s : Bytes) : Prop :=
  ∃ sign ds, s = sign ++ ds ∧ (sign = [] ∨ sign = b!"+" ∨ sign = b!"-") ∧ ds ≠ [] ∧ ∀ c ∈ ds, 48 ≤ c ∧ c ≤ 57

private theorem digitsValue_digits {a : Nat} {s : Bytes} {n : Nat} (h : digitsValue a s = some n) : ∀ c ∈ s, 48 ≤ c ∧ c ≤ 57 := by
  induction s generalizing a with
  | nil => simp
  | cons c cs ih =>
    rw [digitsValue] at h
    split at h
    · next hc =>
      intro x hx
      rcases List.mem_cons.1 hx with rfl | hx
      · exact hc
      · exact ih h x hx
    · cases h

private theorem atoi_number {s : Bytes} {q : Int} (h : atoi s = some q) : IsNumber s := by
  cases s with
  | nil => cases h
  | cons c cs =>
    unfold atoi at h
    simp only at h
    generalize hds : (if c = 45 ∨ c = 43 then cs else c :: cs) = ds at h
    by_cases hne : ds = []
    · rw [if_pos hne] at h; cases h
    · rw [if_neg hne] at h
      cases hd : digitsValue 0 ds with
      | none => rw [hd] at h; cases h
      | some n =>
        have hdig := digitsValue_digits hd
        by_cases hs : c = 45 ∨ c = 43
        · rw [if_pos hs] at hds
          subst hds
          refine ⟨[c], cs, rfl, ?_, hne, hdig⟩
          rcases hs with rfl | rfl
          · exact .inr (.inr rfl)
          · exact .inr (.inl rfl)
        · rw [if_neg hs] at hds
          subst hds
          exact ⟨[], c :: cs, rfl, .inl rfl, hne, hdig⟩

/-- C55: `QualityOf` gives the fraction digits of the first quality below 1; and 9 without one, or if it is no number. -/
theorem C55_qualityOf (v : Bytes) (ps : List (Bytes × Bytes)) (hv : 59 ∉ v) (hps : ∀ p ∈ ps, ValidParam p) :
    let q := (ps.find? (fun p => p.1 = b!"q" ∧ b!"0.".isPrefixOf p.2)).map (·.2)
    (∀ n, n < 2 ^ 63 → q = some (b!"0." ++ decBytes n) → qualityOf (renderValue v ps) = n) ∧
      (q = none → qualityOf (renderValue v ps) = 9) ∧
      (∀ x, q = some (b!"0." ++ x) → ¬ IsNumber x → qualityOf (renderValue v ps) = 9) := by
  have hg := getParam_render v ps b!"q" b!"0." b!"9" hv hps (by decide) (by decide)
  have hs : b!";" ++ b!"q" ++ 61 :: b!"0." = b!";q=0." := rfl
  rw [hs] at hg
  refine ⟨?_, ?_, ?_⟩
  · intro n hn hf
    unfold qualityOf
    rw [hg]
    cases hfi : List.find? (fun p => decide (p.1 = b!"q" ∧ b!"0.".isPrefixOf p.2 = true)) ps with
    | none => rw [hfi] at hf; simp at hf
    | some p =>
      rw [hfi] at hf
      simp only [Option.map_some, Option.some.injEq] at hf
      simp only [hf, List.drop_left, atoi_dec n hn]
  · intro hq
    rw [Option.map_eq_none_iff] at hq
    unfold qualityOf
    rw [hg, hq]
    decide
  · intro x hf hx
    unfold qualityOf
    rw [hg]
    cases hfi : List.find? (fun p => decide (p.1 = b!"q" ∧ b!"0.".isPrefixOf p.2 = true)) ps with
    | none => rw [hfi] at hf; simp at hf
    | some p =>
      rw [hfi] at hf
      simp only [Option.map_some, Option.some.injEq] at hf
      simp only [hf, List.drop_left]
      cases ha : atoi x with
      | none => rfl
      | some q => exact absurd (atoi_number ha) hx

private theorem digitsValue_decimal (a : Nat) (s : Bytes) (h : ∀ c ∈ s, 48 ≤ c ∧ c ≤ 57) :
    digitsValue a s = some (s.foldl (fun n c => 10 * n + (c.toNat - 48)) a) := by
  induction s generalizing a with
  | nil => rfl
  | cons c cs ih =>
    rw [digitsValue, if_pos (h c (by simp)), ih _ (fun c hc => h c (by simp [hc])), List.foldl_cons, Nat.mul_comm]

/-- C55: which number `QualityOf` gives when the fraction has a sign: it is read, too; and numbers which do not fit in 64 bits count as none. -/
theorem C55_quality_signed (v : Bytes) (ps : List (Bytes × Bytes)) (hv : 59 ∉ v) (hps : ∀ p ∈ ps, ValidParam p) (sign ds : Bytes)
    (hsign : sign = [] ∨ sign = b!"+" ∨ sign = b!"-") (hne : ds ≠ []) (hds : ∀ c ∈ ds, 48 ≤ c ∧ c ≤ 57)
    (hq : (ps.find? (fun p => p.1 = b!"q" ∧ b!"0.".isPrefixOf p.2)).map (·.2) = some (b!"0." ++ (sign ++ ds))) :
    let n : Int := if sign = b!"-" then -(Spec.decimal ds : Int) else Spec.decimal ds
    qualityOf (renderValue v ps) = if -2 ^ 63 ≤ n ∧ n < 2 ^ 63 then n else 9 := by
  have hg := getParam_render v ps b!"q" b!"0." b!"9" hv hps (by decide) (by decide)
  have hs : b!";" ++ b!"q" ++ 61 :: b!"0." = b!";q=0." := rfl
  rw [hs] at hg
  have hd := digitsValue_decimal 0 ds hds
  change digitsValue 0 ds = some (Spec.decimal ds) at hd
  have ha : atoi (sign ++ ds) = (let n : Int := if sign = b!"-" then -(Spec.decimal ds : Int) else Spec.decimal ds
      if -2 ^ 63 ≤ n ∧ n < 2 ^ 63 then some n else none) := by
    generalize Spec.decimal ds = m at hd
    rcases hsign with rfl | rfl | rfl
    · cases ds with
      | nil => exact absurd rfl hne
      | cons c cs =>
        have hc := hds c (by simp)
        have h45 : c ≠ 45 := by rintro rfl; exact absurd hc.1 (by decide)
        have h43 : c ≠ 43 := by rintro rfl; exact absurd hc.1 (by decide)
        unfold atoi
        simp only [List.nil_append, h45, h43, or_self, if_false, hd, reduceCtorEq, List.nil_eq]
        (repeat' split) <;> first | rfl | omega
    · unfold atoi
      simp only [List.cons_append, List.nil_append, or_true, if_true, hne, if_false, hd]
      rw [if_neg (c := (43 : Byte) = 45) (by decide), if_neg (c := b!"+" = b!"-") (by decide)]
      (repeat' split) <;> first | rfl | omega
    · unfold atoi
      simp only [List.cons_append, List.nil_append, true_or, if_true, hne, if_false, hd]
      (repeat' split) <;> first | rfl | omega
  intro n
  unfold qualityOf
  rw [hg]
  cases hfi : List.find? (fun p => decide (p.1 = b!"q" ∧ b!"0.".isPrefixOf p.2 = true)) ps with
  | none => rw [hfi] at hq; simp at hq
  | some p =>
    rw [hfi] at hq
    simp only [Option.map_some, Option.some.injEq] at hq
    have ha' : atoi (sign ++ ds) = if -2 ^ 63 ≤ n ∧ n < 2 ^ 63 then some n else none := ha
    simp only [hq, List.drop_left, ha']
    by_cases hn : -2 ^ 63 ≤ n ∧ n < 2 ^ 63
    · rw [if_pos hn, if_pos hn]
    · rw [if_neg hn, if_neg hn]

example : qualityOf b!"a;q=0.-3" = -3 ∧ qualityOf b!"a;q=0.+03" = 3 ∧ qualityOf b!"a;q=0.-9223372036854775808" = -9223372036854775808 ∧
    qualityOf b!"a;q=0.9223372036854775808" = 9 := by decide +kernel

example : qualityOf b!"text/html;level=1;q=0.8" = 8 ∧ qualityOf b!"text/html" = 9 ∧
    qualityOf b!"text/html;q=0.x" = 9 ∧ qualityOf b!"text/html;q=1" = 9 := by decide

/-- C55 is false for parameters written with the usual space after the semicolon: they are not found. -/
theorem C55_space_violation :
    charsetOf b!"text/html; charset=utf-8" = b!"iso-8859-1" ∧ qualityOf b!"text/html; q=0.5" = 9 ∧
      paramOf b!"form-data; name=a" b!"name" = [] := by decide

/-- C55 is false for qualities with several digits: 0.45 is reported as higher than 0.5, and 0.05 as the same. -/
theorem C55_quality_order_violation :
    qualityOf b!"a;q=0.45" > qualityOf b!"a;q=0.5" ∧ qualityOf b!"a;q=0.05" = qualityOf b!"a;q=0.5" := by decide

end Indigo.Props
