/-
Lemmas on the static files handler.
-/
import Verif.Model.Static
import Verif.Spec.Static

namespace Indigo.Static
open PathLib Indigo.Spec.Static

theorem cut_some {sep : Byte} {s a b : Bytes} (h : cut sep s = some (a, b)) : s = a ++ sep :: b ∧ sep ∉ a := by
  induction s generalizing a b with
  | nil => simp [cut] at h
  | cons c cs ih =>
    unfold cut at h
    by_cases hc : c = sep
    · rw [if_pos hc] at h
      injection h with h; injection h with h1 h2
      subst h1 h2 hc; simp
    · rw [if_neg hc] at h
      cases hcut : cut sep cs with
      | none => rw [hcut] at h; simp at h
      | some r =>
        rw [hcut] at h
        obtain ⟨x, y⟩ := r
        simp at h
        obtain ⟨h1, h2⟩ := h
        obtain ⟨e1, e2⟩ := ih hcut
        subst h1 h2
        exact ⟨by rw [e1]; rfl, by simp [e2]; exact fun h => hc h.symm⟩

theorem cut_none {sep : Byte} {s : Bytes} (h : cut sep s = none) : sep ∉ s := by
  induction s with
  | nil => simp
  | cons c cs ih =>
    unfold cut at h
    by_cases hc : c = sep
    · rw [if_pos hc] at h; simp at h
    · rw [if_neg hc] at h
      cases hcut : cut sep cs with
      | none => simp only [List.mem_cons, not_or]; exact ⟨fun h => hc h.symm, ih hcut⟩
      | some r => rw [hcut] at h; simp at h

theorem hasDots_skip (a b : Bytes) (h : DOT ∉ a) : HasDots (a ++ DOT :: b) ↔ b.head? = some DOT ∨ HasDots b := by
  constructor
  · rintro ⟨x, y, e⟩
    induction a generalizing x with
    | nil =>
      cases x with
      | nil =>
        left
        have : DOT :: b = 46 :: 46 :: y := e
        injection this with _ h2
        rw [h2]; rfl
      | cons c x =>
        right
        have : DOT :: b = c :: (x ++ 46 :: 46 :: y) := e
        injection this with _ h2
        exact ⟨x, y, h2⟩
    | cons c a ih =>
      cases x with
      | nil =>
        have : c :: (a ++ DOT :: b) = 46 :: 46 :: y := e
        injection this with h1 _
        exact absurd (by rw [h1]; simp [DOT]) h
      | cons d x =>
        have : c :: (a ++ DOT :: b) = d :: (x ++ 46 :: 46 :: y) := e
        injection this with _ h2
        exact ih (fun hm => h (by simp [hm])) x h2
  · rintro (h1 | ⟨x, y, e⟩)
    · cases b with
      | nil => simp at h1
      | cons c b => simp at h1; subst h1; exact ⟨a, b, rfl⟩
    · exact ⟨a ++ DOT :: x, y, by rw [e]; simp⟩

theorem isSafeLoop_iff (n : Nat) (p : Bytes) (h : p.length ≤ n) : isSafeLoop n p = true ↔ ¬ HasDots p := by
  induction n generalizing p with
  | zero =>
    cases p with
    | nil =>
      simp [isSafeLoop]
      rintro ⟨x, y, e⟩
      have := congrArg List.length e
      simp at this
    | cons c p => simp at h
  | succ n ih =>
    unfold isSafeLoop
    cases hc : cut DOT p with
    | none =>
      simp
      rintro ⟨x, y, e⟩
      exact cut_none hc (by rw [e]; simp [DOT])
    | some r =>
      obtain ⟨a, b⟩ := r
      obtain ⟨e, hn⟩ := cut_some hc
      have hl := congrArg List.length e
      simp at hl
      have hb := ih b (by omega)
      have hs := hasDots_skip a b hn
      rw [← e] at hs
      show (if b.head? = some DOT then false else isSafeLoop n b) = true ↔ _
      by_cases hd : b.head? = some DOT
      · rw [if_pos hd]
        have : HasDots p := hs.2 (Or.inl hd)
        simp [this]
      · rw [if_neg hd, hb, hs]
        simp [hd]

/-- `isSafe` accepts exactly the paths without two dots in a row. -/
theorem isSafe_iff (p : Bytes) : isSafe p = true ↔ ¬ HasDots p := isSafeLoop_iff _ p (Nat.le_refl _)

theorem usingSeparator_eq (p : Bytes) : usingSeparator p = separator p := by
  induction p with
  | nil => rfl
  | cons c p ih =>
    unfold usingSeparator separator
    rw [List.find?_cons]
    by_cases h : c = SLASH ∨ c = BACKSLASH
    · rw [if_pos h]
      have : (c == 47 || c == 92) = true := by simpa [SLASH, BACKSLASH] using h
      rw [this]; rfl
    · rw [if_neg h]
      have : (c == 47 || c == 92) = false := by simpa [SLASH, BACKSLASH] using h
      rw [this, ih]; rfl

theorem withTrailingSep_eq (p : Bytes) (h : p ≠ []) : withTrailingSep p = some (dir p ++ [separator p]) := by
  unfold withTrailingSep
  have hl := List.getLast?_eq_some_getLast h
  rw [hl, usingSeparator_eq]
  unfold dir
  rw [hl]
  by_cases he : p.getLast h = separator p
  · simp only [he, if_true]
    rw [← he, List.dropLast_concat_getLast]
  · simp [he]

theorem copyAt_length (mem : Bytes) (off : Nat) (d : Bytes) (h : off ≤ mem.length) :
    (Serializer.copyAt mem off d).length = mem.length := by
  simp only [Serializer.copyAt, List.length_append, List.length_take, List.length_drop]
  omega

theorem buff_set (m : Mem) (b : Bytes) (h : m.cur < m.heap.length) (n : Nat) :
    ({ m with heap := m.heap.set m.cur b, buffLen := n } : Mem).buff = b := by
  simp [Mem.buff, List.getD, h]

theorem buff_set' (m : Mem) (b : Bytes) (h : m.cur < m.heap.length) :
    ({ m with heap := m.heap.set m.cur b } : Mem).buff = b := by
  simp [Mem.buff, List.getD, h]

/-- The memory is as the program leaves it. -/
def Mem.Ok (m : Mem) : Prop := m.cur < m.heap.length

/-- The path the handler looks at: the bytes of the root followed by those of the request path after as many bytes as
the prefix has, or a part of the root if the request path is shorter than the prefix. -/
def target (c : Conf) (path : Bytes) : Bytes :=
  (c.replaceWith ++ path.drop c.prefix_.length).take (c.replaceWith.length + path.length - c.prefix_.length)

theorem copyAt_fits (mem : Bytes) (off : Nat) (d : Bytes) (h : off + d.length ≤ mem.length) :
    Serializer.copyAt mem off d = mem.take off ++ d ++ mem.drop (off + d.length) := by
  unfold Serializer.copyAt
  rw [List.take_of_length_le (i := mem.length - off) (l := d) (by omega), List.append_assoc]

theorem set_spec (c : Conf) (m : Mem) (path : Bytes) (hm : Mem.Ok m) :
    ∃ pre post, Mem.Ok (set c m path) ∧ (set c m path).buff = pre ++ path ++ post ∧
      pre.length = c.maxPrefixLen - c.prefix_.length ∧ (set c m path).buffLen = pre.length + path.length := by
  have fin : ∀ m : Mem, Mem.Ok m → c.maxPrefixLen - c.prefix_.length + path.length ≤ m.buff.length →
      ∀ m' : Mem, m' = { m with
        heap := m.heap.set m.cur (Serializer.copyAt m.buff (c.maxPrefixLen - c.prefix_.length) path)
        buffLen := (c.maxPrefixLen - c.prefix_.length) +
          min path.length (m.buff.length - (c.maxPrefixLen - c.prefix_.length)) } →
      ∃ pre post, Mem.Ok m' ∧ m'.buff = pre ++ path ++ post ∧
        pre.length = c.maxPrefixLen - c.prefix_.length ∧ m'.buffLen = pre.length + path.length := by
    intro m hm hl m' e
    refine ⟨m.buff.take (c.maxPrefixLen - c.prefix_.length), m.buff.drop (c.maxPrefixLen - c.prefix_.length + path.length),
      ?_, ?_, ?_, ?_⟩
    · subst e; simpa [Mem.Ok] using hm
    · subst e; rw [buff_set _ _ hm, copyAt_fits _ _ _ hl]
    · simp; omega
    · subst e; simp only [List.length_take]; omega
  by_cases h : c.maxPrefixLen - c.prefix_.length + path.length > m.buff.length
  · refine fin { m with
        heap := m.heap ++ [List.replicate (c.maxPrefixLen - c.prefix_.length + path.length) 0], cur := m.heap.length }
      ?_ ?_ _ ?_
    · simp [Mem.Ok]
    · simp [Mem.buff, List.getD]
    · unfold PathLib.set; simp only [h, if_true]
  · refine fin m hm (by omega) _ ?_
    unfold PathLib.set; simp only [h, if_false]

/-- Where the path is in the buffer after `Set` and `Relative`. -/
theorem relative_spec (c : Conf) (m : Mem) (pre path post : Bytes) (hm : Mem.Ok m)
    (hb : m.buff = pre ++ path ++ post) (hp : pre.length = c.maxPrefixLen - c.prefix_.length)
    (hl : m.buffLen = pre.length + path.length)
    (hmax : c.maxPrefixLen = max c.prefix_.length c.replaceWith.length) :
    match relative c m with
    | none => c.replaceWith.length + path.length < c.prefix_.length
    | some (v, m') => Mem.Ok m' ∧ m'.read v = target c path ∧ c.prefix_.length ≤ c.replaceWith.length + path.length := by
  have hbl : m.buff.length = pre.length + path.length + post.length := by rw [hb]; simp; omega
  unfold relative
  by_cases h1 : c.maxPrefixLen - c.replaceWith.length > m.buff.length
  · simp only [h1, if_true]; omega
  · simp only [h1, if_false]
    rw [buff_set' m _ hm]
    rw [copyAt_length _ _ _ (by omega)]
    by_cases h2 : c.maxPrefixLen - c.replaceWith.length > m.buffLen ∨ m.buffLen > m.buff.length
    · rw [if_pos h2]
      show c.replaceWith.length + path.length < c.prefix_.length
      omega
    · rw [if_neg h2]
      refine ⟨by simpa [Mem.Ok] using hm, ?_, by omega⟩
      have hread : ∀ b, ({ m with heap := m.heap.set m.cur b } : Mem).heap.getD m.cur [] = b := fun b => buff_set' m b hm
      unfold Mem.read target
      rw [hread]
      unfold Serializer.slice
      apply List.ext_getElem?
      intro i
      rw [List.getElem?_take, List.getElem?_take]
      have e : m.buffLen - (c.maxPrefixLen - c.replaceWith.length) =
        c.replaceWith.length + path.length - c.prefix_.length := by omega
      rw [e]
      by_cases hi : i < c.replaceWith.length + path.length - c.prefix_.length
      · rw [if_pos hi, if_pos hi, List.getElem?_drop]
        unfold Serializer.copyAt
        rw [List.getElem?_append_right (by simp; omega)]
        simp only [List.length_take]
        have e2 : c.maxPrefixLen - c.replaceWith.length + i - min (c.maxPrefixLen - c.replaceWith.length) m.buff.length = i := by
          omega
        rw [e2]
        by_cases h3 : i < c.replaceWith.length
        · rw [List.getElem?_append_left (by simp; omega), List.getElem?_append_left h3, List.getElem?_take,
            if_pos (by omega)]
        · rw [List.getElem?_append_right (by simp; omega), List.getElem?_append_right (by omega), List.getElem?_drop,
            List.getElem?_drop, hb, List.getElem?_append_left (by simp; omega),
            List.getElem?_append_right (by omega)]
          congr 1
          have hbl' : (pre ++ path ++ post).length = pre.length + path.length + post.length := by
            simp only [List.length_append]
          simp only [List.length_take]
          rw [hbl']
          omega
      · rw [if_neg hi, if_neg hi]

/-- What a request served alone comes to. -/
theorem serve_spec (c : Conf) (m : Mem) (path : Bytes) (hm : Mem.Ok m)
    (hmax : c.maxPrefixLen = max c.prefix_.length c.replaceWith.length) :
    Mem.Ok (serve c m path).2 ∧
    (serve c m path).1 =
      if c.replaceWith.length + path.length < c.prefix_.length then .panicked
      else if isSafe (target c path) then .opened (target c path) else .refused := by
  obtain ⟨pre, post, ho, hb, hp, hl⟩ := set_spec c m path hm
  have hr := relative_spec c (set c m path) pre path post ho hb hp hl hmax
  unfold serve
  simp only [step]
  cases hrel : relative c (set c m path) with
  | none =>
    rw [hrel] at hr
    simp only
    rw [if_pos hr]
    exact ⟨ho, rfl⟩
  | some r =>
    obtain ⟨v, m'⟩ := r
    rw [hrel] at hr
    obtain ⟨h1, h2, h3⟩ := hr
    simp only
    rw [if_neg (Nat.not_lt.mpr h3), h2]
    by_cases hs : isSafe (target c path) = true
    · simp only [hs, if_true, h2]; exact ⟨h1, trivial⟩
    · simp only [hs]; exact ⟨h1, rfl⟩

theorem serveAll_ok (c : Conf) (ps : List Bytes) (m : Mem) (hm : Mem.Ok m)
    (hmax : c.maxPrefixLen = max c.prefix_.length c.replaceWith.length) : Mem.Ok (serveAll c ps m) := by
  induction ps generalizing m with
  | nil => exact hm
  | cons p ps ih => exact ih _ (serve_spec c m p hm hmax).1

end Indigo.Static
