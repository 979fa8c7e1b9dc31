/-
C80 Building a response does not change the application's data.
-/
import Verif.Spec.ResponseMem
import Verif.Proofs.Memory

namespace Indigo.Props
open Indigo.ResponseMem Indigo.Spec.ResponseMem

/-- `append` leaves the application's memory alone, unless the slice has spare capacity there. -/
private theorem append_app (grow : Nat → Nat → Nat) (m : Mem) (s : Slice) (b : Bytes)
    (h : ∀ i, s.ref = .app i → s.cap = s.len) :
    (append grow m s b).1.app = m.app := by
  unfold append
  split
  · rename_i hc
    cases hr : s.ref with
    | own i => rfl
    | app i =>
      have : b = [] := by
        have := h i hr
        exact List.eq_nil_of_length_eq_zero (by omega)
      subst this
      simp only [overwrite, Mem.store, Mem.array, List.append_nil, List.length_nil, Nat.add_zero, List.take_append_drop]
      apply List.ext_getElem?
      intro j
      rw [List.getElem?_set]
      split
      · rename_i hij
        subst hij
        split
        · rename_i hlt; simp [List.getElem?_eq_getElem hlt]
        · rename_i hlt; simp [List.getElem?_eq_none (Nat.not_lt.1 hlt)]
      · rfl
  · rfl

/-- Something written makes the body the response's own. -/
private theorem append_own (grow : Nat → Nat → Nat) (m : Mem) (s : Slice) (b : Bytes)
    (h : ∀ i, s.ref = .app i → s.cap = s.len) :
    ∀ i, (append grow m s b).2.ref = .app i → b = [] ∧ (append grow m s b).2 = s := by
  intro i
  unfold append
  split
  · rename_i hc
    intro hr
    have := h i hr
    have : b = [] := List.eq_nil_of_length_eq_zero (by omega)
    subst this
    exact ⟨rfl, rfl⟩
  · intro hr; cases hr

/-- What holds between calls. -/
private structure Inv (made : List Bytes) (body : Bytes) (lent : Bool) (st : State) : Prop where
  app : st.mem.app = made
  valid : Valid st.mem st.body
  exact : ∀ i, st.body.ref = .app i → st.body.cap = st.body.len
  lent : ∀ i, st.body.ref = .app i → lent = false → st.body.len = 0
  read : st.mem.read st.body = body

private theorem write_inv {grow made body lent st} (b : Bytes) (h : Inv made body lent st) :
    Inv made (body ++ b) (lent && b.isEmpty)
      ⟨(append grow st.mem st.body b).1, (append grow st.mem st.body b).2⟩ := by
  obtain ⟨h1, h2, h3, h4, h5⟩ := h
  obtain ⟨k1, k2⟩ := append_read grow st.mem st.body b h2
  refine ⟨(append_app grow _ _ b h3).trans h1, k1, ?_, ?_, by rw [k2, h5]⟩
  · intro i hi
    obtain ⟨_, he⟩ := append_own grow _ _ b h3 i hi
    rw [he] at hi ⊢
    exact h3 i hi
  · intro i hi hl
    obtain ⟨hb, he⟩ := append_own grow _ _ b h3 i hi
    rw [he] at hi ⊢
    refine h4 i hi ?_
    simpa [hb] using hl

private theorem json_inv {grow made} : ∀ (pieces : List Bytes) (body : Bytes) (st : State), Inv made body false st →
    Inv made (body ++ pieces.flatten) false
      (pieces.foldl (fun st b => let r := append grow st.mem st.body b; ⟨r.1, r.2⟩) st)
  | [], body, st, h => by simpa using h
  | b :: pieces, body, st, h => by
    have := json_inv (grow := grow) pieces _ _ (write_inv (grow := grow) b h)
    simpa using this

private theorem part_append {made more : List Bytes} {i off len : Nat} (h : i < made.length) :
    part (made ++ more) i off len = part made i off len := by
  simp [part, List.getElem?_append_left h]

private theorem run_inv (grow : Nat → Nat → Nat) : ∀ (calls : List Call) (made : List Bytes) (body : Bytes) (lent : Bool) (st : State),
    Typed made calls → Considerate lent calls → Inv made body lent st →
    ∃ lent', Inv (made ++ allocated calls) (calls.foldl (saidNext (made ++ allocated calls)) body) lent'
      (calls.foldl (step grow) st)
  | [], made, body, lent, st, _, _, h => ⟨lent, by simpa [allocated] using h⟩
  | c :: calls, made, body, lent, st, ht, hc, h => by
    have go : ∀ lent' made', made' ++ allocated calls = made ++ allocated (c :: calls) → Typed made' calls → Considerate lent' calls →
        Inv made' (saidNext (made ++ allocated (c :: calls)) body c) lent' (step grow st c) →
        ∃ lent'', Inv (made ++ allocated (c :: calls))
          ((c :: calls).foldl (saidNext (made ++ allocated (c :: calls))) body) lent'' ((c :: calls).foldl (step grow) st) := by
      intro lent' made' hm ht' hc' hi
      have := run_inv grow calls made' _ lent' _ ht' hc' hi
      rw [hm] at this
      simpa only [List.foldl_cons] using this
    have same : (∀ content, c ≠ .alloc content) → made ++ allocated calls = made ++ allocated (c :: calls) := by
      intro h
      cases c <;> first | rfl | exact absurd rfl (h _)
    obtain ⟨h1, h2, h3, h4, h5⟩ := h
    cases c with
    | alloc content =>
      refine go lent (made ++ [content]) (by simp [allocated]) ht hc ⟨?_, ?_, h3, h4, ?_⟩
      · simp [step, h1]
      · refine ⟨h2.1, Nat.le_trans h2.2 ?_⟩
        cases hr : st.body.ref with
        | own i => simp [step, hr, Mem.array]
        | app i =>
          simp only [step, Mem.array, hr]
          by_cases hlt : i < st.mem.app.length
          · rw [List.getElem?_append_left hlt]; exact Nat.le_refl _
          · simp [List.getElem?_eq_none (Nat.not_lt.1 hlt)]
      · show Mem.read _ st.body = body
        rw [← h5]
        cases hr : st.body.ref with
        | own i => simp [Mem.read, step, Mem.array, hr]
        | app i =>
          by_cases hlt : i < st.mem.app.length
          · simp [Mem.read, step, Mem.array, hr, List.getElem?_append_left hlt]
          · have := h2.inside
            have hl := h2.len
            simp [Mem.array, hr, List.getElem?_eq_none (Nat.not_lt.1 hlt)] at this
            have : st.body.len = 0 := by omega
            simp [Mem.read, this]
    | string i off len =>
      obtain ⟨hi, hlen, ht⟩ := ht
      refine go _ made (same (by simp)) ht hc ⟨h1, ⟨Nat.le_refl _, ?_⟩, ?_, ?_, ?_⟩
      · show off + len ≤ (st.mem.array (.app i)).length
        simpa [Mem.array, h1] using hlen
      · intro j _; rfl
      · intro j _ hl; simpa [step] using hl
      · simp only [saidNext]
        rw [part_append hi]
        simp [step, Mem.read, part, Mem.array, h1]
    | bytes s =>
      obtain ⟨r, off, len, cap⟩ := s
      cases r with
      | own _ => exact ht.elim
      | app i =>
        obtain ⟨hi, hsl, hcap, ht⟩ := ht
        refine go _ made (same (by simp)) ht hc.2 ⟨h1, ⟨hsl, ?_⟩, ?_, ?_, ?_⟩
        · show off + cap ≤ (st.mem.array (.app i)).length
          simpa [Mem.array, h1] using hcap
        · intro j _; exact hc.1
        · intro j _ hl; simpa [step] using hl
        · simp only [saidNext]
          rw [part_append hi]
          simp [step, Mem.read, part, Mem.array, h1]
    | write b =>
      refine go _ made (same (by simp)) ht hc ?_
      have := write_inv (grow := grow) b ⟨h1, h2, h3, h4, h5⟩
      simpa [step, saidNext] using this
    | json pieces =>
      obtain ⟨rfl, hc⟩ := hc
      refine go _ made (same (by simp)) ht hc ?_
      have h0 : Inv made [] false { st with body := { st.body with len := 0 } } := by
        refine ⟨h1, ⟨Nat.zero_le _, h2.inside⟩, ?_, fun _ _ _ => rfl, by simp [Mem.read]⟩
        intro i hi
        have e1 := h3 i hi
        have e2 := h4 i hi rfl
        show st.body.cap = 0
        omega
      have := json_inv (grow := grow) pieces [] _ h0
      simpa [step, saidNext] using this
    | clear =>
      refine go _ made (same (by simp)) ht hc ⟨h1, ⟨Nat.le_refl _, Nat.zero_le _⟩, ?_, ?_, ?_⟩
      · intro i hi; cases hi
      · intro i hi; cases hi
      · simp [step, Mem.read, saidNext]

/-- **C80 (part).** However an application builds a response (with any number of calls, also of `Clear`), its strings and
slices keep the contents it has given them, and the body is what it has said, if slices are passed without spare
capacity and `JSON` is not called while the body is a string or slice of the application. This does not depend on how
`append` allocates. -/
theorem C80_data_unchanged_partial (grow : Nat → Nat → Nat) (calls : List Call) (typed : Typed [] calls)
    (considerate : Considerate false calls) :
    (run grow calls).mem.app = allocated calls ∧ (run grow calls).mem.read (run grow calls).body = said calls := by
  have h0 : Inv [] [] false ({} : State) :=
    ⟨rfl, ⟨Nat.le_refl _, Nat.zero_le _⟩, (fun i hi => by cases hi), (fun i hi => by cases hi), rfl⟩
  obtain ⟨_, h⟩ := run_inv grow calls [] [] false {} typed considerate h0
  rw [List.nil_append] at h
  exact ⟨h.app, h.read⟩

/-- **C80 (part).** Then the builder is the one with its body as a value, which other theorems are about. -/
theorem C80_as_values_partial (grow : Nat → Nat → Nat) (text : GoErr → Bytes) (calls : List Call) (typed : Typed [] calls)
    (considerate : Considerate false calls) :
    (run grow calls).mem.read (run grow calls).body = (calls.foldl (asFields text (allocated calls)) Fields.new).Body := by
  rw [(C80_data_unchanged_partial grow calls typed considerate).2, said]
  generalize allocated calls = made
  have : ∀ (calls : List Call) (f : Fields), calls.foldl (saidNext made) f.Body = (calls.foldl (asFields text made) f).Body := by
    intro calls
    induction calls with
    | nil => intro f; rfl
    | cons c calls ih =>
      intro f
      rw [List.foldl_cons, List.foldl_cons, ← ih]
      cases c <;> rfl
  exact this calls Fields.new

/-- A response built of strings, slices, writes and JSON. -/
def built : List Call :=
  [.alloc b!"hello, world", .string 0 0 12, .write b!"!", .json [b!"{}"], .clear, .alloc b!"abcdef", .json [b!"{\"a\":", b!"1}"],
    .bytes ⟨.app 1, 2, 3, 3⟩, .write b!"", .write b!"xyz"]

/-- The hypotheses of C80 are met. -/
example : Typed [] built ∧ Considerate false built ∧ said built = b!"cdexyz" ∧
    allocated built = [b!"hello, world", b!"abcdef"] := by
  refine ⟨?_, by simp [built, Considerate], by decide +kernel, by decide +kernel⟩
  simp [built, Typed]

/-- **C80** is false: `JSON` after `String` writes its output over the string of the application (and crashes the program if
that is a constant, whose memory is read-only), whenever the string is not shorter than the output. -/
theorem C80_json_violation (grow : Nat → Nat → Nat) (s out : Bytes) (hlen : out.length ≤ s.length) :
    (run grow [.alloc s, .string 0 0 s.length, .json [out]]).mem.app = [out ++ s.drop out.length] := by
  simp [run, step, append, hlen, Mem.store, Mem.array, overwrite]

example : b!"{}" ++ b!"not found".drop 2 = b!"{}t found" := by decide

/-- **C80** is false: `Write` after `Bytes` of a slice with spare capacity writes over what lies behind the slice. -/
theorem C80_write_violation (grow : Nat → Nat → Nat) (a b : Bytes) (n : Nat) (hn : n + b.length ≤ a.length) :
    (run grow [.alloc a, .bytes ⟨.app 0, 0, n, a.length⟩, .write b]).mem.app =
      [a.take n ++ b ++ a.drop (n + b.length)] := by
  simp [run, step, append, hn, Mem.store, Mem.array, overwrite]

end Indigo.Props
