/-
C33: cookies sent by a browser.
-/
import Verif.Proofs.Cookie

namespace Indigo.Props
open Indigo.Spec.Cookie

/-- The pairs in a jar. -/
def jarPairs (jar : Storage) : List (Bytes × Bytes) := jar.pairs.map (fun p => (p.Key, p.Value))

/-- C33: parsing the header a browser sends for a list of cookies adds exactly these pairs, in order, to what
the jar contains, without an error. -/
theorem C33_parse_of_rendering (jar : Storage) (ps : List (Bytes × Bytes)) (h : ∀ p ∈ ps, Valid p) :
    ∃ jar', CookieJar.parse jar (text ps) = (jar', false) ∧ jarPairs jar' = jarPairs jar ++ ps := by
  refine ⟨_, CookieJar.parseLoop_of_says (CookieJar.says_text ps h) _ _ (Nat.le_refl _), ?_⟩
  simp [jarPairs, CookieJar.addAll, Function.comp_def]

example : Valid (b!"session", b!"a=b%20c") ∧ Valid (b!"lang", []) ∧
    text [(b!"session", b!"a=b%20c"), (b!"lang", []), (b!"x", b!"1")] = b!"session=a=b%20c; lang=; x=1" := by
  refine ⟨⟨by decide, by decide, by decide⟩, ⟨by decide, by decide, by decide⟩, by decide⟩

/-- C33: for every header value whatsoever: it is accepted exactly if it says some list of pairs (read
liberally), and these pairs are then added. A malformed value is refused. -/
theorem C33_parse_accepts_exactly (jar jar' : Storage) (data : Bytes) :
    CookieJar.parse jar data = (jar', false) ↔
      ∃ ps, Says data ps ∧ jar' = { jar with pairs := jar.pairs ++ ps.map (fun p => ⟨p.1, p.2⟩) } := by
  constructor
  · exact CookieJar.says_of_parseLoop _ _ _ _
  · rintro ⟨ps, h, rfl⟩
    exact CookieJar.parseLoop_of_says h _ _ (Nat.le_refl _)

example : Says b!"a=1;b=2; " [(b!"a", b!"1"), (b!"b", b!"2")] :=
  .more (k := b!"a") (v := b!"1") (rest := b!"b=2; ") (by decide) (by decide) (by decide) (by decide)
    (.moreSpace (k := b!"b") (v := b!"2") (rest := []) (by decide) (by decide) (by decide) .none)

example : (CookieJar.parse {} b!"a=1; =2").2 = true ∧ (CookieJar.parse {} b!"a=1; b").2 = true := by decide

/-- What the `Cookie` headers of a request say altogether. -/
inductive SaysAll : List Bytes → List (Bytes × Bytes) → Prop
  | nil : SaysAll [] []
  | cons {d : Bytes} {ds : List Bytes} {ps qs : List (Bytes × Bytes)} : Says d ps → SaysAll ds qs →
      SaysAll (d :: ds) (ps ++ qs)

private theorem parseAll_says {ds : List Bytes} {ps : List (Bytes × Bytes)} (h : SaysAll ds ps) (jar : Storage) :
    CookieJar.parseAll jar ds = (CookieJar.addAll jar ps, false) := by
  induction h generalizing jar with
  | nil => simp [CookieJar.parseAll, CookieJar.addAll_nil]
  | @cons d ds ps qs h _ ih =>
    have := CookieJar.parseLoop_of_says h d.length jar (Nat.le_refl _)
    simp only [CookieJar.parseAll, CookieJar.parse, this]
    rw [ih]
    simp [CookieJar.addAll]

private theorem says_parseAll : ∀ (ds : List Bytes) (jar jar' : Storage),
    CookieJar.parseAll jar ds = (jar', false) → ∃ ps, SaysAll ds ps ∧ jar' = CookieJar.addAll jar ps := by
  intro ds
  induction ds with
  | nil =>
    intro jar jar' h
    simp [CookieJar.parseAll] at h
    exact ⟨[], .nil, by rw [h, CookieJar.addAll_nil]⟩
  | cons d ds ih =>
    intro jar jar' h
    simp only [CookieJar.parseAll] at h
    split at h
    · simp at h
    · rename_i jar1 h1
      obtain ⟨ps, hp, rfl⟩ := CookieJar.says_of_parseLoop _ _ _ _ h1
      obtain ⟨qs, hq, rfl⟩ := ih _ _ h
      exact ⟨_, .cons hp hq, by simp [CookieJar.addAll]⟩

private theorem valuesLoop_filter (F : Fold) (k : Bytes) (ps : List Pair) (acc : List Bytes) :
    Storage.valuesLoop F k ps acc = acc ++ (ps.filter (fun p => F.eq p.Key k)).map (·.Value) := by
  induction ps generalizing acc with
  | nil => simp [Storage.valuesLoop]
  | cons p ps ih =>
    rw [Storage.valuesLoop, ih]
    by_cases h : F.eq p.Key k = true <;> simp [h]

/-- C33: `Request.Cookies` gives exactly the cookies of all `Cookie` headers of the request, whatever the jar
has been used for before, and however often it is called. -/
theorem C33_request_cookies (F : Fold) (r : Request) (ps : List (Bytes × Bytes)) :
    ((r.cookies F).1.map jarPairs = some ps) ↔
      SaysAll ((r.Headers.pairs.filter (fun p => F.eq p.Key b!"cookie")).map (·.Value)) ps := by
  have hv : (r.Headers.values F b!"cookie").1 =
      (r.Headers.pairs.filter (fun p => F.eq p.Key b!"cookie")).map (·.Value) := by
    rw [Storage.values]
    simpa using valuesLoop_filter F b!"cookie" r.Headers.pairs []
  unfold Request.cookies
  simp only [hv]
  generalize hd : (r.Headers.pairs.filter (fun p => F.eq p.Key b!"cookie")).map (·.Value) = ds
  constructor
  · intro h
    split at h
    · simp at h
    · rename_i jar' hp
      obtain ⟨qs, hq, rfl⟩ := says_parseAll _ _ _ hp
      simp [jarPairs, CookieJar.addAll, Storage.clear, Function.comp_def] at h
      subst h
      exact hq
  · intro h
    rw [parseAll_says h]
    simp [jarPairs, CookieJar.addAll, Storage.clear, Function.comp_def]

example : SaysAll [b!"a=1", b!"b=2"] [(b!"a", b!"1"), (b!"b", b!"2")] :=
  .cons (ps := [(b!"a", b!"1")]) (.last (k := b!"a") (v := b!"1") (by decide) (by decide) (by decide))
    (.cons (ps := [(b!"b", b!"2")]) (.last (k := b!"b") (v := b!"2") (by decide) (by decide) (by decide)) .nil)

/-- C33: reading the cookies does not change them, nor anything else a handler sees. -/
theorem C33_request_cookies_again (F : Fold) (r : Request) :
    (((r.cookies F).2.cookies F).1.map jarPairs = (r.cookies F).1.map jarPairs) ∧
      (r.cookies F).2.Headers.pairs = r.Headers.pairs := by
  have hh : (r.cookies F).2.Headers.pairs = r.Headers.pairs := by
    unfold Request.cookies
    simp only [Storage.values]
    split <;> rfl
  refine ⟨?_, hh⟩
  have key : ∀ ps, ((r.cookies F).2.cookies F).1.map jarPairs = some ps ↔ (r.cookies F).1.map jarPairs = some ps := by
    intro ps
    rw [C33_request_cookies, C33_request_cookies, hh]
  cases h1 : (r.cookies F).1.map jarPairs with
  | some ps => exact (key ps).2 h1
  | none =>
    cases h2 : ((r.cookies F).2.cookies F).1.map jarPairs with
    | none => rfl
    | some ps => rw [(key ps).1 h2] at h1; exact h1

end Indigo.Props
