/-
Properties C12 and C13: URL query parameters.
-/
import Verif.Proofs.Query

namespace Indigo.Props
open Indigo.Spec Indigo.Query

/-- Accesses a program may make to the query object of its connection; `set` is what the parser and
`Request.Clear` do. -/
inductive QueryOp
  | set (raw : Bytes)
  | get (k : Bytes)
  | unwrap

/-- State of the query object after a history of accesses. -/
def queryRun (F : Fold) (ops : List QueryOp) : Query :=
  ops.foldl (fun q op =>
    match op with
    | .set raw => q.set raw
    | .get k => (q.get F k).1
    | .unwrap => q.unwrap.1) {}

theorem queryRun_inv (F : Fold) (ops : List QueryOp) :
    (queryRun F ops).parsed = false → (queryRun F ops).params.pairs = [] := by
  unfold queryRun
  suffices h : ∀ (ops : List QueryOp) (q : Query), (q.parsed = false → q.params.pairs = []) →
      let q' := ops.foldl (fun q op =>
        match op with
        | QueryOp.set raw => q.set raw
        | .get k => (q.get F k).1
        | .unwrap => q.unwrap.1) q
      q'.parsed = false → q'.params.pairs = [] by
    exact h ops {} (fun _ => rfl)
  intro ops
  induction ops with
  | nil => intro q h; exact h
  | cons op ops ih =>
    intro q h
    simp only [List.foldl_cons]
    apply ih
    have hdo : (q.doParse).1.parsed = true := by
      unfold Query.doParse
      split
      · assumption
      · rfl
    cases op with
    | set raw =>
      simp only [Query.set]
      split
      · intro _; rfl
      · rename_i hp; simp only; intro _; exact h (by simpa using hp)
    | get k =>
      simp only [Query.get]
      intro hp
      exfalso
      split at hp
      · rename_i q' e heq
        rw [heq] at hdo; simp at hdo hp; simp [hp] at hdo
      · rename_i q' heq
        rw [heq] at hdo
        split at hp <;> exact absurd hdo (by simp only; rw [hp]; decide)
    | unwrap =>
      simp only [Query.unwrap]
      intro hp
      exact absurd hdo (by simp [hp])

/-- After any history followed by `Set(raw)`, the next access parses `raw` into an empty storage. -/
theorem set_doParse (F : Fold) (ops : List QueryOp) (raw : Bytes) :
    ((queryRun F ops).set raw).doParse =
      ({ parsed := true,
         params := (parsePairs raw).1.foldl (fun s p => s.add p.Key p.Value) ((queryRun F ops).set raw).params,
         raw := parseMem raw }, (parsePairs raw).2) ∧
    ((queryRun F ops).set raw).params.pairs = [] := by
  have hinv := queryRun_inv F ops
  generalize queryRun F ops = q at hinv
  unfold Query.set Query.doParse
  split
  · simp [Storage.clear]
  · rename_i h
    simp at h
    simp [hinv h]

theorem foldl_add_pairs (ps : List Pair) (s : Storage) :
    (ps.foldl (fun s p => s.add p.Key p.Value) s).pairs = s.pairs ++ ps := by
  induction ps generalizing s with
  | nil => simp
  | cons p ps ih => rw [List.foldl_cons, ih]; simp [Storage.add]

/-- C12 is false of the code: the query is percent-decoded before it is split into parameters, so an
encoded `&` in a value starts a new parameter, and an encoded `+` becomes a space. -/
theorem C12_encoded_delimiters_violation :
    (formEncode [(b!"a", b!"b&c=d")] = b!"a=b%26c%3Dd" ∧
      parsePairs b!"a=b%26c%3Dd" = ([⟨b!"a", b!"b"⟩, ⟨b!"c", b!"d"⟩], none)) ∧
    (formEncode [(b!"a", b!"1+1")] = b!"a=1%2B1" ∧
      parsePairs b!"a=1%2B1" = ([⟨b!"a", b!"1 1"⟩], none)) := by decide

/-- C12, the part that holds. For every history of earlier accesses, every list of items with non-empty keys
such that no key contains `&`, `=` or `+` and no value contains `&` or `+`, every way of writing spaces as `+`
and every percent-encoding of the resulting text, the first access yields exactly the parameters, in order,
flags having the value `1`. Missing: keys and values containing these bytes in encoded form. -/
theorem C12_query_params_partial (F : Fold) (ops : List QueryOp) (items : List QItem) (t e : Bytes)
    (hkey : ∀ i ∈ items, i.key ≠ [])
    (hsafe : ∀ i ∈ items, (∀ c ∈ i.key, c ≠ 38 ∧ c ≠ 61 ∧ c ≠ 43) ∧
      ∀ v, i = .kv i.key v → ∀ c ∈ v, c ≠ 38 ∧ c ≠ 43)
    (ht : SpacePlus t (formText items)) (he : PctEncodes e t) :
    (((queryRun F ops).set e).unwrap).2 =
      (items.map (fun i => ⟨i.param.1, i.param.2⟩), none) := by
  have hok : ∀ i ∈ items, ItemOk i := by
    intro i hi
    have h1 := hkey i hi
    have h2 := hsafe i hi
    cases i with
    | flag k => exact ⟨h1, h2.1⟩
    | kv k v => exact ⟨h1, h2.1, h2.2 v rfl⟩
  have hp : parsePairs e = (items.map toPair, none) := by
    have hs := scan_items items t [] hok ht
    unfold parsePairs
    split
    · rename_i h0
      have : e = [] := List.eq_nil_of_length_eq_zero h0
      subst this
      cases he
      simpa [scan] using hs
    · rw [UriDecode.Decode_eq, UriDecode.pct_of_encodes he]
      simpa using hs
  obtain ⟨h1, h2⟩ := set_doParse F ops e
  simp only [Query.unwrap, h1, hp, foldl_add_pairs, h2]
  rfl

/-- C12: an item with an empty key before `=` is an error, after any correct items. -/
theorem C12_empty_key_rejected (F : Fold) (ops : List QueryOp) (items : List QItem) (t e v : Bytes)
    (hkey : ∀ i ∈ items, i.key ≠ [])
    (hsafe : ∀ i ∈ items, (∀ c ∈ i.key, c ≠ 38 ∧ c ≠ 61 ∧ c ≠ 43) ∧
      ∀ v, i = .kv i.key v → ∀ c ∈ v, c ≠ 38 ∧ c ≠ 43)
    (ht : SpacePlus t (formText items)) (hne : items ≠ [])
    (he : PctEncodes e (t ++ 38 :: 61 :: v)) :
    (((queryRun F ops).set e).unwrap).2.2 = some Status.ErrBadQuery := by
  have hok : ∀ i ∈ items, ItemOk i := by
    intro i hi
    have h1 := hkey i hi
    have h2 := hsafe i hi
    cases i with
    | flag k => exact ⟨h1, h2.1⟩
    | kv k v => exact ⟨h1, h2.1, h2.2 v rfl⟩
  have hp : (parsePairs e).2 = some Status.ErrBadQuery := by
    unfold parsePairs
    split
    · rename_i h0
      have : e = [] := List.eq_nil_of_length_eq_zero h0
      subst this
      have := UriDecode.pct_of_encodes he
      simp [UriDecode.pct] at this
    · rw [UriDecode.Decode_eq, UriDecode.pct_of_encodes he]
      simp only
      rw [scan_items_then items t _ [] hok hne ht]
      simp [scan]
  obtain ⟨h1, _⟩ := set_doParse F ops e
  simp only [Query.unwrap, h1, hp]

example :
    let items : List QItem := [.kv b!"name" b!"a b=c", .flag b!"verbose", .kv b!"x" []]
    let t := b!"name=a+b=c&verbose&x="
    let e := b!"n%61me=a+b%3Dc&verbose&x="
    SpacePlus t (formText items) ∧ UriDecode.Decode e = some t ∧
      (((queryRun Fold.ascii [.set b!"q=1", .get b!"q"]).set e).unwrap).2 =
        ([⟨b!"name", b!"a b=c"⟩, ⟨b!"verbose", b!"1"⟩, ⟨b!"x", []⟩], none) := by
  refine ⟨?_, by decide, by decide⟩
  simp only [formText, QItem.text]
  repeat' first | exact .nil | apply SpacePlus.same | apply SpacePlus.plus

/-- C13 is false of the code: the error of a malformed query is reported by the first access only, and
accessing the query changes what `Raw()` returns. -/
theorem C13_malformed_query_forgotten_violation :
    (let q0 := (queryRun Fold.ascii []).set b!"a=1&=2"
     let q1 := (q0.get Fold.ascii b!"a").1
     (q0.get Fold.ascii b!"a").2 = .error (.http Status.ErrBadQuery) ∧
     (q1.get Fold.ascii b!"a").2 = .ok b!"1" ∧ q1.unwrap.2.2 = none) ∧
    (let q0 := (queryRun Fold.ascii []).set b!"k=%41+b"
     q0.raw = b!"k=%41+b" ∧ (q0.get Fold.ascii b!"k").1.raw = b!"k=A b+b") := by decide

/-- C13, the part that holds: whatever happened before, the first access after a request was parsed reports
exactly the parse error of the raw query, if any. If there is none, every later access sees the same
parameters, with no error. Missing: later accesses to a malformed query, and `Raw()`. -/
theorem C13_first_access_partial (F : Fold) (ops : List QueryOp) (raw : Bytes) :
    let q0 := (queryRun F ops).set raw
    (q0.unwrap).2 = ((parsePairs raw).1, (parsePairs raw).2) ∧
    (∀ k e, (parsePairs raw).2 = some e → (q0.get F k).2 = .error (.http e)) ∧
    ((parsePairs raw).2 = none → ∀ later : List QueryOp, (∀ op ∈ later, ∀ r, op ≠ .set r) →
      (later.foldl (fun q op =>
        match op with
        | .set raw => q.set raw
        | .get k => (q.get F k).1
        | .unwrap => q.unwrap.1) q0).unwrap.2 = ((parsePairs raw).1, none)) := by
  obtain ⟨h1, h2⟩ := set_doParse F ops raw
  refine ⟨?_, ?_, ?_⟩
  · simp only [Query.unwrap, h1, foldl_add_pairs, h2]; rfl
  · intro k e he
    simp only [Query.get, h1, he]
  · intro hn later hl
    generalize hq : (queryRun F ops).set raw = q0 at h1 h2
    -- either nothing has been parsed yet or the parameters are there
    suffices h : ∀ (later : List QueryOp) (q : Query), (∀ op ∈ later, ∀ r, op ≠ .set r) →
        (q = q0 ∨ (q.parsed = true ∧ q.params.pairs = (parsePairs raw).1)) →
        (later.foldl (fun q op =>
          match op with
          | QueryOp.set raw => q.set raw
          | .get k => (q.get F k).1
          | .unwrap => q.unwrap.1) q).unwrap.2 = ((parsePairs raw).1, none) by
      exact h later q0 hl (Or.inl rfl)
    have hdo : ∀ q : Query, (q = q0 ∨ (q.parsed = true ∧ q.params.pairs = (parsePairs raw).1)) →
        (q.doParse).1.parsed = true ∧ (q.doParse).1.params.pairs = (parsePairs raw).1 ∧
        (q.doParse).2 = none := by
      intro q hq
      rcases hq with rfl | ⟨ha, hb⟩
      · rw [h1]; simp [foldl_add_pairs, h2, hn]
      · simp [Query.doParse, ha, hb]
    intro later
    induction later with
    | nil =>
      intro q _ hq
      obtain ⟨_, b, c⟩ := hdo q hq
      simp [Query.unwrap, b, c]
    | cons op ops' ih =>
      intro q hl hq
      obtain ⟨a, b, c⟩ := hdo q hq
      simp only [List.foldl_cons]
      apply ih _ (fun o ho => hl o (by simp [ho]))
      right
      cases op with
      | set r => exact absurd rfl (hl _ (by simp) r)
      | get k =>
        simp only [Query.get]
        generalize q.doParse = d at a b c
        obtain ⟨d1, d2⟩ := d
        simp at c
        subst c
        simp only
        split <;> exact ⟨a, b⟩
      | unwrap => exact ⟨a, b⟩

example : (parsePairs b!"a=1&b").2 = none ∧ (parsePairs b!"a=1&=2").2 = some Status.ErrBadQuery := by
  decide

end Indigo.Props
