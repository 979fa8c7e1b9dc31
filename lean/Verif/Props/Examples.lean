/-
C102 The example programs do what they show.
-/
import Verif.Model.Examples
import Verif.Props.TraceWire
import Verif.Props.RejectedApp
import Verif.Props.Files
import Verif.Props.EveryProgram

namespace Indigo.Props
open Indigo.Serve Indigo.Spec Indigo.Router Indigo.Spec.Router Indigo.Examples

theorem hello_header (F : Fold) (f : Fields) : f.header F b!"Hello" [b!"world"] = some { f with Headers := f.Headers ++ [⟨b!"Hello", b!"world"⟩] } := by
  have h1 : F.eq b!"Hello" b!"content-type" = false := by
    rw [Bool.eq_false_iff]; intro h; exact absurd ((F.eq_iff_lower (by decide) (by decide)).1 h) (by decide)
  have h2 : F.eq b!"Hello" b!"transfer-encoding" = false := by
    rw [Bool.eq_false_iff]; intro h; exact absurd ((F.eq_iff_lower (by decide) (by decide)).1 h) (by decide)
  simp [Fields.header, h1, h2]

theorem default_defaults_any (F : Fold) : DefaultsOK F (Config.default.defaultHeaders.getD []) where
  clean := (default_defaults).clean
  distinct := by
    show List.Pairwise _ [_]
    exact List.pairwise_singleton _ _

theorem default_framing : ∀ d ∈ Config.default.defaultHeaders.getD [], framingFields [d] = [] := by decide +kernel

/-- Responses with some headers, a code and a body. -/
theorem readable_plain (p : Proto) (code : Status.Code) (hs : List Pair) (b : Bytes) (clean : ∀ h ∈ hs, NameOK h.Key ∧ NoBreak h.Value)
    (framing : ∀ h ∈ hs, framingFields [(h.Key, h.Value)] = []) (final : 200 ≤ code) (body : code ≠ 204 ∧ code ≠ 304) :
    Readable (Config.default.defaultHeaders.getD []) p { Fields.new with Code := code, Headers := hs, Body := b } where
  clean := ⟨clean, noBreak_html, noBreak_nil, by simp [Fields.new]⟩
  attachment _ h := by cases h
  framing := ⟨framing, default_framing, rfl⟩
  final := final
  noBody h := by
    rcases h with h | h
    · exact absurd h body.1
    · exact absurd h body.2

section
variable {σ : Type} {text : GoErr → Bytes} {env : Env Act} {rt : Runtime Act}

/-! ### examples/helloworld -/

theorem hello_declared (F : Fold) : declared (helloworld F) = [((b!"/", .GET), helloHandler F)] := rfl

theorem hello_methods (F : Fold) (path : Bytes) : methodsOf (helloworld F) path = if path = b!"/" then [.GET] else [] := by
  unfold methodsOf
  rw [hello_declared]
  by_cases h : path = b!"/"
  · rw [if_pos h]; subst h; rfl
  · rw [if_neg h, List.filter_eq_nil_iff]
    intro m _ hm
    simp only [List.any_cons, List.any_nil, Bool.or_false, decide_eq_true_eq, Prod.mk.injEq] at hm
    exact h hm.1.symm

/-- What its handlers answer. -/
theorem hello_answers (F : Fold) {r r' : Request} {h : Handler Act} (hc : Chosen F text (helloworld F) (.static (helloworld F)) r h r') :
    ∃ f, h r' = pure (f, r') ∧ (∀ p, Readable (Config.default.defaultHeaders.getD []) p f) ∧ f.Attachment.content = none ∧
      (r.Path = b!"/" → r.Method = .GET ∨ r.Method = .HEAD → f.Code = 200 ∧ f.Body = b!"<h1>Hello, world!</h1>" ∧ f.Headers = [⟨b!"Hello", b!"world"⟩]) ∧
      (r.Path = b!"/" → r.Method ≠ .GET → r.Method ≠ .HEAD → f.Code = 405 ∧ f.Body = [] ∧ f.Headers = [⟨b!"Allow", b!"GET"⟩]) ∧
      (r.Path ≠ b!"/" → f.Code = 404 ∧ f.Body = [] ∧ f.Headers = []) := by
  have ok : ∀ r', ∃ f, helloHandler F r' = pure (f, r') ∧ (∀ p, Readable (Config.default.defaultHeaders.getD []) p f) ∧ f.Attachment.content = none ∧
      f.Code = 200 ∧ f.Body = b!"<h1>Hello, world!</h1>" ∧ f.Headers = [⟨b!"Hello", b!"world"⟩] := by
    intro r'
    refine ⟨_, ?_, fun p => readable_plain p 200 [⟨b!"Hello", b!"world"⟩] b!"<h1>Hello, world!</h1>" (by unfold NameOK NoBreak; decide) (by decide) (by decide) (by decide), rfl, rfl, rfl, rfl⟩
    rw [helloHandler, hello_header]
    rfl
  cases hc with
  | route hf _ hd =>
    obtain ⟨rfl, rfl, -⟩ := hf
    rw [hello_declared] at hd
    have := List.mem_singleton.1 hd
    simp only [Prod.mk.injEq] at this
    obtain ⟨⟨hp, hm⟩, rfl⟩ := this
    obtain ⟨f, h1, h2, h3, h4⟩ := ok (onRoute r [] _)
    exact ⟨f, h1, h2, h3, fun _ _ => h4, fun _ hn => absurd hm hn, fun hn => absurd hp hn⟩
  | head hf _ hm _ hd => 
    obtain ⟨rfl, rfl, -⟩ := hf
    rw [hello_declared] at hd
    have := List.mem_singleton.1 hd
    simp only [Prod.mk.injEq, and_true] at this
    obtain ⟨hp, rfl⟩ := this
    obtain ⟨f, h1, h2, h3, h4⟩ := ok (onRoute r [] _)
    exact ⟨f, h1, h2, h3, fun _ _ => h4, fun _ _ hn => absurd hm hn, fun hn => absurd hp hn⟩
  | notAllowed hf hp hn hh he =>
    obtain ⟨rfl, rfl, hroute⟩ := hf
    rename_i ms
    have hpath : r.Path = b!"/" := by
      by_cases h : r.Path = b!"/"
      · exact h
      · rw [hello_methods, if_neg h] at hroute; exact absurd rfl hroute
    rw [hello_methods, if_pos hpath] at hn hh hp
    have hms : ms = [.GET] := List.perm_singleton.1 hp
    have : handlerFor F text (helloworld F) Status.MethodNotAllowed = some (fun req => pure ({ Fields.new with Code := 405, Headers := [⟨b!"Allow", req.Env.AllowedMethods⟩] }, req)) := rfl
    rw [this] at he
    cases he
    subst hms
    refine ⟨_, rfl, fun p => readable_plain p 405 [⟨b!"Allow", b!"GET"⟩] [] (by unfold NameOK NoBreak; decide) (by decide) (by decide) (by decide), rfl, ?_, fun _ _ _ => ⟨rfl, rfl, rfl⟩,
      fun h => absurd hpath h⟩
    rintro - (h | h)
    · exact absurd (by rw [h]; simp) hn
    · exact absurd (by simp) (hh h)
  | caught _ _ hk => cases hk
  | notFound hf _ _ he =>
    have hpath : r.Path ≠ b!"/" := by
      intro h
      refine hf r.Path [] ⟨rfl, rfl, ?_⟩
      rw [hello_methods, if_pos h]
      simp
    have : handlerFor F text (helloworld F) Status.NotFound = some _ := rfl
    rw [this] at he
    cases he
    exact ⟨_, rfl, fun p => readable_plain p 404 [] [] (by simp) (by simp) (by decide) (by decide), rfl, fun h => absurd h hpath, fun h => absurd h hpath, fun _ => ⟨rfl, rfl, rfl⟩⟩

/-- A path without trailing slashes. -/
theorem normalize_root (p : Bytes) : UriNormalize.normalize p = b!"/" ↔ p = b!"/" := by
  constructor
  · intro h
    obtain ⟨n, hn⟩ := (C43_only_slashes_removed p).2
    rw [h] at hn
    rw [C43_short_paths_partial p (by
      intro c hc
      rw [hn] at hc
      rcases List.mem_append.1 (List.mem_of_mem_drop hc) with h | h
      · simpa using h
      · exact (List.mem_replicate.1 h).2)] at h
    exact h
  · rintro rfl; decide

theorem hello_traceable (F : Fold) (s : Sending) :
    Traceable (helloworld F) (.static (helloworld F)) s ↔ s.head.method = .TRACE ∧ s.path = b!"/" := by
  constructor
  · rintro ⟨r, h1, h2, h3, route, values, ⟨rfl, -, h4⟩, -⟩
    refine ⟨by rw [← h1]; exact h3, ?_⟩
    rw [hello_methods] at h4
    by_cases h : r.Path = b!"/"
    · exact (normalize_root _).1 (h2.symm.trans h)
    · rw [if_neg h] at h4; exact absurd rfl h4
  · rintro ⟨h1, h2⟩
    refine ⟨{ Method := .TRACE, Path := b!"/" }, h1.symm, by rw [h2]; decide, rfl, b!"/", [], ⟨rfl, rfl, ?_⟩, ?_⟩
    · rw [hello_methods, if_pos rfl]; simp
    · rw [hello_methods, if_pos rfl]; simp

theorem hello_polite (E : Setup σ (Runtime Act)) : AllHandlers E.F text (helloworld E.F) (Polite E) := by
  refine ⟨?_, fun c hc => (by cases hc), ?_⟩
  · rw [hello_declared]
    intro d hd
    rw [List.mem_singleton.1 hd]
    refine polite_pure _ _ (fun r => ⟨{ Fields.new with Headers := [⟨b!"Hello", b!"world"⟩], Body := b!"<h1>Hello, world!</h1>" }, ?_⟩)
    simp only [helloHandler, hello_header]
    rfl
  · intro e he
    have : errorHandlers (Spec.Router.defaults E.F text) (helloworld E.F) = Spec.Router.defaults E.F text := rfl
    rw [this] at he
    simp only [Spec.Router.defaults, List.mem_cons, List.not_mem_nil, or_false] at he
    rcases he with rfl | rfl <;> exact polite_pure _ _ (fun r => ⟨_, rfl⟩)

/-- **C102**, examples/helloworld. Whatever well-formed requests are sent to it one after another on a connection, in whatever segmentation: each is answered, in order. Those for `/` get its greeting, without the body if the method is HEAD;
TRACE requests get their own text, after those of earlier ones (see C42); other methods get 405 and are told that GET is allowed; those for other paths get 404. -/
theorem C102_helloworld (E : Setup σ (Runtime Act)) (dec : DecodesChunked E.P) (router : E.router = Router.impl E.F .panic) (enc : EncToken) (remote : Bytes)
    (made : make E.F text env (helloworld E.F) = some rt) (cl : Client) (quiet : Quiet cl) (writes : NoWriteError cl) (post : List (Bytes × Option GoErr)) (silent : Silent post)
    (ss : List Sending) (ok : ∀ s ∈ ss, SendableWith E.F Config.default s) (stream : cl.stream = ss.flatMap Sending.bytes)
    (upgrade : ∀ s ∈ ss, s.head.last b!"upgrade" = none) (keep : ∀ s ∈ ss.dropLast, KeepsOpen s.head) :
    ∃ frames msgs,
      (serve E (newConn E.P Config.default enc remote rt (followedBy cl post))).1.client.written = cl.written ++ frames ∧
      readReplies (ss.map (fun s => s.head.method)) frames.flatten = some msgs ∧ msgs.length = ss.length ∧
      ∀ i : Nat, ∀ (s : Sending) (m : Msg), ss[i]? = some s → msgs[i]? = some m →
        (s.path = b!"/" → s.head.method = .GET → m.code = 200 ∧ m.rest = b!"<h1>Hello, world!</h1>" ∧ (b!"Hello", b!"world") ∈ m.fields) ∧
        (s.path = b!"/" → s.head.method = .HEAD → m.code = 200 ∧ m.rest = [] ∧ (b!"Hello", b!"world") ∈ m.fields) ∧
        (s.path = b!"/" → s.head.method = .TRACE →
          m.code = 200 ∧ m.rest = ((ss.take i).filter (fun s => s.head.method = .TRACE ∧ s.path = b!"/")).flatMap echoOf ++ echoOf s) ∧
        (s.path = b!"/" → s.head.method ∉ [.GET, .HEAD, .TRACE] → m.code = 405 ∧ m.rest = [] ∧ (b!"Allow", b!"GET") ∈ m.fields) ∧
        (s.path ≠ b!"/" → m.code = 404 ∧ m.rest = []) := by
  have plain : ∀ r, mutated (helloworld E.F) r = r := fun _ => rfl
  have stat : Static (helloworld E.F) := by
    unfold Static
    rw [hello_declared]
    intro d hd
    rw [List.mem_singleton.1 hd]
    show (123 : Byte) ∉ b!"/"
    decide
  obtain ⟨frames, msgs, h1, h2, h3, h4⟩ := C87_trace E dec router Config.default (by decide) (default_defaults_any E.F) default_framing enc remote (helloworld E.F) made
    (.static (helloworld E.F)) (fun _ => True) (.inl ⟨rfl, stat⟩) (fun r => ⟨rfl, rfl, rfl, rfl, rfl, id⟩) (hello_polite E)
    (fun _ _ _ _ _ seen world h r _ _ _ _ hc => by
      obtain ⟨f, g1, g2, -⟩ := hello_answers E.F hc
      exact ⟨f, r, _, by rw [g1]; rfl, g2 _⟩)
    (by decide) cl quiet writes post silent ss (fun s hs => ⟨ok s hs, trivial⟩) stream upgrade keep
  refine ⟨frames, msgs, h1, h2, h3, ?_⟩
  intro i s m hi hm
  obtain ⟨history, e, after, seen, world, heard, del, -, hecho, hserve⟩ := h4 i s m hi hm
  have hpath : (arriving (helloworld E.F) seen).Path = b!"/" ↔ s.path = b!"/" := by
    show UriNormalize.normalize seen.Path = _ ↔ _
    rw [del.path]
    exact normalize_root _
  have hmeth : (arriving (helloworld E.F) seen).Method = s.head.method := del.carries.method
  have hech := echoed_sent (L := .static (helloworld E.F)) (.inl rfl) del plain
  have answered : ¬ (s.head.method = .TRACE ∧ s.path = b!"/") → _ := fun h => hserve (fun he => h ((hello_traceable E.F s).1 (hech.1 he)))
  refine ⟨fun hp hm => ?_, fun hp hm => ?_, fun hp hm => ?_, fun hp hm => ?_, fun hp => ?_⟩
  · obtain ⟨h, r, f, r', left, hc, hrun, g1, g2, ds, -, g3⟩ := answered (by rw [hm]; rintro ⟨h, -⟩; cases h)
    obtain ⟨f', k1, -, k2, k3, -, -⟩ := hello_answers E.F hc
    rw [k1] at hrun
    cases hrun
    obtain ⟨k4, k5, k6⟩ := k3 (hpath.2 hp) (.inl (hmeth.trans hm))
    refine ⟨g1.trans k4, by rw [g2, hm, if_neg (by decide), sentBody, k2, k5], ?_⟩
    rw [g3, k6]
    have : stripOWS b!"world" = b!"world" := by decide
    simp [this]
  · obtain ⟨h, r, f, r', left, hc, hrun, g1, g2, ds, -, g3⟩ := answered (by rw [hm]; rintro ⟨h, -⟩; cases h)
    obtain ⟨f', k1, -, k2, k3, -, -⟩ := hello_answers E.F hc
    rw [k1] at hrun
    cases hrun
    obtain ⟨k4, k5, k6⟩ := k3 (hpath.2 hp) (.inr (hmeth.trans hm))
    refine ⟨g1.trans k4, by rw [g2, hm, if_pos rfl], ?_⟩
    rw [g3, k6]
    have : stripOWS b!"world" = b!"world" := by decide
    simp [this]
  · obtain ⟨k1, -, k3⟩ := hecho (hech.2 ((hello_traceable E.F s).2 ⟨hm, hp⟩))
    refine ⟨k1, ?_⟩
    rw [k3, echoedText_sent (.inl rfl) plain _ _ heard, echo_sent del plain]
    congr 2
    refine List.filter_congr (fun t _ => ?_)
    simp only [hello_traceable]
  · obtain ⟨h, r, f, r', left, hc, hrun, g1, g2, ds, -, g3⟩ := answered (by rintro ⟨h, -⟩; exact hm (by rw [h]; simp))
    obtain ⟨f', k1, -, k2, -, k3, -⟩ := hello_answers E.F hc
    rw [k1] at hrun
    cases hrun
    obtain ⟨k4, k5, k6⟩ := k3 (hpath.2 hp) (by rw [hmeth]; intro h; exact hm (by rw [h]; simp)) (by rw [hmeth]; intro h; exact hm (by rw [h]; simp))
    refine ⟨g1.trans k4, by rw [g2, sentBody, k2, k5]; simp, ?_⟩
    rw [g3, k6]
    have : stripOWS b!"GET" = b!"GET" := by decide
    simp [this]
  · obtain ⟨h, r, f, r', left, hc, hrun, g1, g2, -⟩ := answered (by rintro ⟨-, h⟩; exact hp h)
    obtain ⟨f', k1, -, k2, -, -, k3⟩ := hello_answers E.F hc
    rw [k1] at hrun
    cases hrun
    obtain ⟨k4, k5, -⟩ := k3 (fun h => hp (hpath.1 h))
    exact ⟨g1.trans k4, by rw [g2, sentBody, k2, k5]; simp⟩

/-! ### examples/dynroute -/

/-- The template of the only route. -/
def dynTemplates : List Radix.Tmpl := [[.lit b!"hello", .var b!"world-name"]]

theorem dyn_declared (F : Fold) : declared (dynroute F) = [((b!"/hello/{world-name}", .GET), dynamicHandler F)] := rfl

theorem dyn_methods (F : Fold) (path : Bytes) : methodsOf (dynroute F) path = if path = b!"/hello/{world-name}" then [.GET] else [] := by
  unfold methodsOf
  rw [dyn_declared]
  by_cases h : path = b!"/hello/{world-name}"
  · rw [if_pos h]; subst h; rfl
  · rw [if_neg h, List.filter_eq_nil_iff]
    intro m _ hm
    simp only [List.any_cons, List.any_nil, Bool.or_false, decide_eq_true_eq, Prod.mk.injEq] at hm
    exact h hm.1.symm

theorem slash_cases (p : Bytes) : 47 ∉ p ∨ ∃ a b, p = a ++ 47 :: b ∧ 47 ∉ a := by
  induction p with
  | nil => exact .inl (by simp)
  | cons c cs ih =>
    by_cases hc : c = 47
    · exact .inr ⟨[], cs, by rw [hc]; rfl, by simp⟩
    · rcases ih with h | ⟨a, b, rfl, h⟩
      · exact .inl (by simp [h, Ne.symm hc])
      · exact .inr ⟨c :: a, b, rfl, by simp [h, Ne.symm hc]⟩

theorem sections_one {p n : Bytes} (h : Radix.sections p = [n]) (hn : n ≠ []) : 47 ∉ n ∧ (p = n ∨ p = n ++ b!"/") := by
  rcases slash_cases p with hp | ⟨a, b, rfl, ha⟩
  · have hne : p ≠ [] := by rintro rfl; cases h
    have := Indigo.Radix.Node.sectionsFrom_noslash [] p hp (by simpa using hne)
    rw [show Radix.sections p = [p] from this] at h
    cases h
    exact ⟨hp, .inl rfl⟩
  · have := Indigo.Radix.Node.sectionsFrom_slash [] a b ha
    rw [show Radix.sections (a ++ 47 :: b) = a :: Radix.sections b from this] at h
    simp only [List.cons.injEq] at h
    obtain ⟨rfl, hb⟩ := h
    rw [sections_nil hb]
    exact ⟨ha, .inr rfl⟩

theorem sections_two {p m n : Bytes} (h : Radix.sections p = [m, n]) (hn : n ≠ []) : 47 ∉ n ∧ (p = m ++ b!"/" ++ n ∨ p = m ++ b!"/" ++ n ++ b!"/") := by
  rcases slash_cases p with hp | ⟨a, b, rfl, ha⟩
  · by_cases hne : p = []
    · subst hne; cases h
    · have := Indigo.Radix.Node.sectionsFrom_noslash [] p hp (by simpa using hne)
      rw [show Radix.sections p = [p] from this] at h
      cases h
  · have := Indigo.Radix.Node.sectionsFrom_slash [] a b ha
    rw [show Radix.sections (a ++ 47 :: b) = a :: Radix.sections b from this] at h
    simp only [List.cons.injEq] at h
    obtain ⟨rfl, hb⟩ := h
    obtain ⟨h1, h2⟩ := sections_one hb hn
    refine ⟨h1, ?_⟩
    rcases h2 with rfl | rfl
    · exact .inl (by simp)
    · exact .inr (by simp)

theorem sections_hello {n : Bytes} (h1 : n ≠ []) (h2 : 47 ∉ n) : Radix.sections (b!"hello/" ++ n) = [b!"hello", n] := by
  have a := Indigo.Radix.Node.sectionsFrom_slash [] b!"hello" n (by decide)
  have b := Indigo.Radix.Node.sectionsFrom_noslash [] n h2 (by simpa using h1)
  rw [show b!"hello/" ++ n = b!"hello" ++ 47 :: n from rfl, Radix.sections, a]
  rw [Radix.sections, b]
  simp

/-- The path names a world. -/
def Names (path name : Bytes) : Prop := name ≠ [] ∧ 47 ∉ name ∧ ∃ n, path = b!"/hello/" ++ name ++ List.replicate n 47

theorem normalize_named {path name : Bytes} : Names path name ↔ name ≠ [] ∧ 47 ∉ name ∧ UriNormalize.normalize path = b!"/hello/" ++ name := by
  constructor
  · rintro ⟨h1, h2, n, rfl⟩
    refine ⟨h1, h2, ?_⟩
    have e : name.dropLast ++ [name.getLast h1] = name := List.dropLast_concat_getLast h1
    have := C43_trailing_slashes_partial (b!"/hello/" ++ name.dropLast) (name.getLast h1) n (by simp) (by
      intro h
      exact h2 (by rw [show (47 : Byte) = SLASH from rfl, ← h]; exact List.getLast_mem h1))
    rw [List.append_assoc b!"/hello/", e] at this
    exact this
  · rintro ⟨h1, h2, h⟩
    obtain ⟨n, hn⟩ := (C43_only_slashes_removed path).2
    exact ⟨h1, h2, n, by rw [← h]; exact hn⟩

/-- What is found for a request whose path has no trailing slashes. -/
theorem dyn_found {r : Request} {p route : Bytes} {values : List (Bytes × Bytes)} (hp : r.Path = UriNormalize.normalize p) :
    (Lookup.templates dynTemplates).found r route values ↔
      (∃ name, Names p name ∧ route = b!"/hello/{world-name}" ∧ values = [(b!"world-name", name)]) ∨ (p = b!"/" ∧ route = b!"/" ∧ values = []) := by
  constructor
  · rintro ⟨t, path, rfl, ht, hpath, hi, -⟩
    rcases ht with ht | rfl
    · left
      rw [List.mem_singleton.1 ht] at hi ⊢
      generalize hs : Radix.sections path = ss at hi
      cases hi with
      | lit hi =>
        cases hi with
        | var h1 h2 hi =>
          cases hi
          rename_i name
          obtain ⟨h3, h4⟩ := sections_two hs h2
          refine ⟨name, normalize_named.2 ⟨h2, h3, ?_⟩, rfl, rfl⟩
          rcases h4 with h4 | h4
          · rw [← hp, hpath, h4]; rfl
          · exfalso
            have k : UriNormalize.normalize (b!"/hello/" ++ name ++ List.replicate 1 47) = _ := (normalize_named.1 ⟨h2, h3, 1, rfl⟩).2.2
            have : UriNormalize.normalize p = b!"/hello/" ++ name ++ List.replicate 1 47 := by rw [← hp, hpath, h4]; rfl
            rw [← this, C43_idempotent, this] at k
            simp at k
    · right
      generalize hs : Radix.sections path = ss at hi
      cases hi
      rw [sections_nil hs] at hpath
      exact ⟨(normalize_root p).1 (hp.symm.trans hpath), rfl, rfl⟩
  · rintro (⟨name, hn, rfl, rfl⟩ | ⟨rfl, rfl, rfl⟩)
    · obtain ⟨h1, h2, h3⟩ := normalize_named.1 hn
      refine ⟨[.lit b!"hello", .var b!"world-name"], b!"hello/" ++ name, rfl, .inl (List.mem_singleton.2 rfl), by rw [hp, h3]; rfl, ?_, ?_⟩
      · rw [sections_hello h1 h2]
        exact .lit (.var (by decide) h1 .nil)
      · intro i n s ht _ t' ht' hpre
        rw [List.mem_singleton.1 ht'] at hpre
        match i with
        | 0 => cases ht
        | 1 => 
          obtain ⟨rest, hr⟩ := hpre
          simp at hr
        | i + 2 => cases ht
    · refine ⟨[], [], rfl, .inr rfl, by rw [hp]; decide, .nil, ?_⟩
      intro i n s ht
      cases ht

/-- What its handlers answer. -/
theorem dyn_answers (F : Fold) {r r' : Request} {h : Handler Act} {p : Bytes} (hp : r.Path = UriNormalize.normalize p) (params : r.Params.pairs = [])
    (hc : Chosen F text (dynroute F) (.templates dynTemplates) r h r') :
    ∃ f, h r' = pure (f, r') ∧ (∀ v, Readable (Config.default.defaultHeaders.getD []) v f) ∧ f.Attachment.content = none ∧
      (∀ name, Names p name → r.Method = .GET ∨ r.Method = .HEAD → f.Code = 200 ∧ f.Body = b!"your world-name is " ++ name) ∧
      (∀ name, Names p name → r.Method ≠ .GET → r.Method ≠ .HEAD → f.Code = 405 ∧ f.Body = [] ∧ f.Headers = [⟨b!"Allow", b!"GET"⟩]) ∧
      (p = b!"/" → f.Code = 405 ∧ f.Body = []) ∧
      ((∀ name, ¬ Names p name) → p ≠ b!"/" → f.Code = 404 ∧ f.Body = []) := by
  have noroot : ∀ name, ¬ Names b!"/" name := by
    rintro name ⟨-, -, n, h⟩
    cases h
  have same : ∀ {name name'}, Names p name → Names p name' → name = name' := by
    intro name name' h1 h2
    have a := (normalize_named.1 h1).2.2
    have b := (normalize_named.1 h2).2.2
    rw [a] at b
    exact List.append_cancel_left b
  have ok : ∀ name ms, ∃ f, dynamicHandler F (onRoute r [(b!"world-name", name)] ms) = pure (f, onRoute r [(b!"world-name", name)] ms) ∧
      (∀ v, Readable (Config.default.defaultHeaders.getD []) v f) ∧ f.Attachment.content = none ∧ f.Code = 200 ∧ f.Body = b!"your world-name is " ++ name := by
    intro name ms
    refine ⟨_, rfl, fun v => readable_plain v 200 [] (b!"your world-name is " ++ (onRoute r [(b!"world-name", name)] ms).Params.value F b!"world-name") (by simp) (by simp) (by decide) (by decide), rfl, rfl, ?_⟩
    have : (onRoute r [(b!"world-name", name)] ms).Params.value F b!"world-name" = name := by
      have hk : F.eq b!"world-name" b!"world-name" = true := F.eq_of_lower rfl
      simp [onRoute, allowing, Storage.value, Storage.valueOr, Storage.get, Storage.getLoop, params, hk]
    show b!"your world-name is " ++ _ = _
    rw [this]
  have no405 : ∀ allow : Bytes, ∀ v, NoBreak allow → Readable (Config.default.defaultHeaders.getD []) v { Fields.new with Code := 405, Headers := [⟨b!"Allow", allow⟩] } := by
    intro allow v ha
    refine readable_plain v 405 [⟨b!"Allow", allow⟩] [] ?_ ?_ (by decide) (by decide)
    · intro x hx
      rw [List.mem_singleton.1 hx]
      exact ⟨show NameOK b!"Allow" from by unfold NameOK NoBreak; decide, ha⟩
    · intro x hx
      rw [List.mem_singleton.1 hx]
      have e : ∀ y : Bytes, framingFields [(b!"Allow", y)] = [] := by intro y; rfl
      exact e _
  have h405 : handlerFor F text (dynroute F) Status.MethodNotAllowed = some (fun req => pure ({ Fields.new with Code := 405, Headers := [⟨b!"Allow", req.Env.AllowedMethods⟩] }, req)) := rfl
  cases hc with
  | route hf _ hd =>
    rw [dyn_declared] at hd
    have := List.mem_singleton.1 hd
    simp only [Prod.mk.injEq] at this
    obtain ⟨⟨rfl, hm⟩, rfl⟩ := this
    rcases (dyn_found hp).1 hf with ⟨name, hn, -, rfl⟩ | ⟨-, h, -⟩
    · obtain ⟨f, h1, h2, h3, h4, h5⟩ := ok name _
      exact ⟨f, h1, h2, h3, fun n' hn' _ => ⟨h4, by rw [h5, same hn hn']⟩, fun _ _ h => absurd hm h, fun h => absurd (h ▸ hn) (noroot _), fun h => absurd hn (h _)⟩
    · exact absurd h (by decide)
  | head hf _ hm _ hd =>
    rw [dyn_declared] at hd
    have := List.mem_singleton.1 hd
    simp only [Prod.mk.injEq, and_true] at this
    obtain ⟨rfl, rfl⟩ := this
    rcases (dyn_found hp).1 hf with ⟨name, hn, -, rfl⟩ | ⟨-, h, -⟩
    · obtain ⟨f, h1, h2, h3, h4, h5⟩ := ok name _
      exact ⟨f, h1, h2, h3, fun n' hn' _ => ⟨h4, by rw [h5, same hn hn']⟩, fun _ _ _ h => absurd hm h, fun h => absurd (h ▸ hn) (noroot _), fun h => absurd hn (h _)⟩
    · exact absurd h (by decide)
  | notAllowed hf hperm hn hh he =>
    rename_i route values ms
    rw [h405] at he
    cases he
    rcases (dyn_found hp).1 hf with ⟨name, hname, rfl, rfl⟩ | ⟨rfl, rfl, rfl⟩
    · rw [dyn_methods, if_pos rfl] at hn hh hperm
      have hms : ms = [.GET] := List.perm_singleton.1 hperm
      subst hms
      refine ⟨_, rfl, fun v => no405 b!"GET" v (by unfold NoBreak; decide), rfl, ?_, fun _ _ _ _ => ⟨rfl, rfl, rfl⟩, fun _ => ⟨rfl, rfl⟩, fun h => absurd hname (h _)⟩
      rintro _ - (h | h)
      · exact absurd (by rw [h]; simp) hn
      · exact absurd (by simp) (hh h)
    · rw [dyn_methods, if_neg (by decide)] at hperm
      have hms : ms = [] := List.perm_nil.1 hperm
      subst hms
      exact ⟨_, rfl, fun v => no405 [] v (by unfold NoBreak; decide), rfl, fun _ h => absurd h (noroot _), fun _ h => absurd h (noroot _), fun _ => ⟨rfl, rfl⟩, fun _ h => absurd rfl h⟩
  | caught _ _ hk => cases hk
  | notFound hf _ _ he =>
    have h404 : handlerFor F text (dynroute F) Status.NotFound = some _ := rfl
    rw [h404] at he
    cases he
    exact ⟨_, rfl, fun v => readable_plain v 404 [] [] (by simp) (by simp) (by decide) (by decide), rfl,
      fun name h => absurd ((dyn_found hp).2 (.inl ⟨name, h, rfl, rfl⟩)) (hf _ _), fun name h => absurd ((dyn_found hp).2 (.inl ⟨name, h, rfl, rfl⟩)) (hf _ _),
      fun h => absurd ((dyn_found hp).2 (.inr ⟨h, rfl, rfl⟩)) (hf _ _), fun _ _ => ⟨rfl, rfl⟩⟩


theorem dyn_polite (E : Setup σ (Runtime Act)) : AllHandlers E.F text (dynroute E.F) (Polite E) := by
  refine ⟨?_, fun c hc => (by cases hc), ?_⟩
  · rw [dyn_declared]
    intro d hd
    rw [List.mem_singleton.1 hd]
    exact polite_pure _ _ (fun r => ⟨_, rfl⟩)
  · intro e he
    have : errorHandlers (Spec.Router.defaults E.F text) (dynroute E.F) = Spec.Router.defaults E.F text := rfl
    rw [this] at he
    simp only [Spec.Router.defaults, List.mem_cons, List.not_mem_nil, or_false] at he
    rcases he with rfl | rfl <;> exact polite_pure _ _ (fun r => ⟨_, rfl⟩)

theorem dyn_traceable (F : Fold) (s : Sending) :
    Traceable (dynroute F) (.templates dynTemplates) s ↔ s.head.method = .TRACE ∧ ((∃ name, Names s.path name) ∨ s.path = b!"/") := by
  constructor
  · rintro ⟨r, h1, h2, h3, route, values, hf, -⟩
    refine ⟨by rw [← h1]; exact h3, ?_⟩
    rcases (dyn_found h2).1 hf with ⟨name, h, -⟩ | ⟨h, -⟩
    · exact .inl ⟨name, h⟩
    · exact .inr h
  · rintro ⟨h1, h2⟩
    have hf : ∃ route values, (Lookup.templates dynTemplates).found { Method := .TRACE, Path := UriNormalize.normalize s.path } route values ∧ .TRACE ∉ methodsOf (dynroute F) route := by
      rcases h2 with ⟨name, h⟩ | h
      · exact ⟨b!"/hello/{world-name}", [(b!"world-name", name)], (dyn_found rfl).2 (.inl ⟨name, h, rfl, rfl⟩), by rw [dyn_methods, if_pos rfl]; simp⟩
      · exact ⟨b!"/", [], (dyn_found rfl).2 (.inr ⟨h, rfl, rfl⟩), by rw [dyn_methods, if_neg (by decide)]; simp⟩
    obtain ⟨route, values, h3, h4⟩ := hf
    exact ⟨_, h1.symm, rfl, rfl, route, values, h3, h4⟩

theorem dyn_templates (F : Fold) : Templates (dynroute F) dynTemplates where
  writable t ht := by
    rw [List.mem_singleton.1 ht]
    refine ⟨?_, ?_, ?_⟩
    · intro p hp
      simp only [List.mem_cons, List.not_mem_nil, or_false] at hp
      rcases hp with rfl | rfl
      · unfold Radix.Part.Valid; decide
      · unfold Radix.Part.Valid; decide
    · intro n h; cases h
    · intro s h; cases h
  all d hd := by
    rw [dyn_declared] at hd
    rw [List.mem_singleton.1 hd]
    exact ⟨_, List.mem_singleton.2 rfl, rfl⟩
  only t ht := by
    rw [List.mem_singleton.1 ht]
    exact ⟨_, by rw [dyn_declared]; exact List.mem_singleton.2 rfl, rfl⟩
  dynamic := ⟨_, List.mem_singleton.2 rfl, b!"world-name", by simp⟩

/-- **C102**, examples/dynroute. Whatever well-formed requests for paths (beginning with a slash) are sent to it one after another on a connection: each is answered, in order. Those for `/hello/` and a name, with slashes behind it or without,
get a text with this name, without the body if the method is HEAD; other methods than TRACE get 405 and are told that GET is allowed; those for other paths get 404. Requests for `/` get 405, too, though there is nothing at this path (see C36). -/
theorem C102_dynroute (E : Setup σ (Runtime Act)) (dec : DecodesChunked E.P) (router : E.router = Router.impl E.F .panic) (enc : EncToken) (remote : Bytes)
    (made : make E.F text env (dynroute E.F) = some rt) (cl : Client) (quiet : Quiet cl) (writes : NoWriteError cl) (post : List (Bytes × Option GoErr)) (silent : Silent post)
    (ss : List Sending) (ok : ∀ s ∈ ss, SendableWith E.F Config.default s ∧ ∃ p, s.path = SLASH :: p) (stream : cl.stream = ss.flatMap Sending.bytes)
    (upgrade : ∀ s ∈ ss, s.head.last b!"upgrade" = none) (keep : ∀ s ∈ ss.dropLast, KeepsOpen s.head) :
    ∃ frames msgs,
      (serve E (newConn E.P Config.default enc remote rt (followedBy cl post))).1.client.written = cl.written ++ frames ∧
      readReplies (ss.map (fun s => s.head.method)) frames.flatten = some msgs ∧ msgs.length = ss.length ∧
      ∀ i : Nat, ∀ (s : Sending) (m : Msg), ss[i]? = some s → msgs[i]? = some m →
        (∀ name, name ≠ [] → 47 ∉ name → ∀ n, s.path = b!"/hello/" ++ name ++ List.replicate n 47 →
          (s.head.method = .GET → m.code = 200 ∧ m.rest = b!"your world-name is " ++ name) ∧
          (s.head.method = .HEAD → m.code = 200 ∧ m.rest = []) ∧
          (s.head.method = .TRACE → m.code = 200) ∧
          (s.head.method ∉ [.GET, .HEAD, .TRACE] → m.code = 405 ∧ m.rest = [] ∧ (b!"Allow", b!"GET") ∈ m.fields)) ∧
        (s.path = b!"/" → s.head.method ≠ .TRACE → m.code = 405 ∧ m.rest = []) ∧
        ((¬ ∃ name n, name ≠ [] ∧ 47 ∉ name ∧ s.path = b!"/hello/" ++ name ++ List.replicate n 47) → s.path ≠ b!"/" → m.code = 404 ∧ m.rest = []) := by
  have plain : ∀ r, mutated (dynroute E.F) r = r := fun _ => rfl
  obtain ⟨frames, msgs, h1, h2, h3, h4⟩ := C87_trace E dec router Config.default (by decide) (default_defaults_any E.F) default_framing enc remote (dynroute E.F) made
    (.templates dynTemplates) (fun s => ∃ p, s.path = SLASH :: p) (.inr ⟨_, rfl, dyn_templates E.F, fun _ h => h, fun r p h => ⟨p, h⟩⟩) (fun r => ⟨rfl, rfl, rfl, rfl, rfl, id⟩) (dyn_polite E)
    (fun _ _ _ s _ seen world h r _ _ del _ hc => by
      have hp : (arriving (dynroute E.F) seen).Path = UriNormalize.normalize s.path := by
        show UriNormalize.normalize seen.Path = _
        rw [del.path]
      obtain ⟨f, g1, g2, -⟩ := dyn_answers E.F hp del.params hc
      exact ⟨f, r, _, by rw [g1]; rfl, g2 _⟩)
    (by decide) cl quiet writes post silent ss ok stream upgrade keep
  refine ⟨frames, msgs, h1, h2, h3, ?_⟩
  intro i s m hi hm
  obtain ⟨history, e, after, seen, world, heard, del, -, hecho, hserve⟩ := h4 i s m hi hm
  have hpath : (arriving (dynroute E.F) seen).Path = UriNormalize.normalize s.path := by
    show UriNormalize.normalize seen.Path = _
    rw [del.path]
  have hmeth : (arriving (dynroute E.F) seen).Method = s.head.method := del.carries.method
  have hech := echoed_sent (L := .templates dynTemplates) (.inr ⟨_, rfl⟩) del plain
  have answered : ¬ (s.head.method = .TRACE ∧ ((∃ name, Names s.path name) ∨ s.path = b!"/")) → ∃ f : Fields,
      m.code = f.Code ∧ m.rest = (if s.head.method = .HEAD then [] else f.Body) ∧ SaysFields (Config.default.defaultHeaders.getD []) f m.fields ∧
      (∀ name, Names s.path name → s.head.method = .GET ∨ s.head.method = .HEAD → f.Code = 200 ∧ f.Body = b!"your world-name is " ++ name) ∧
      (∀ name, Names s.path name → s.head.method ≠ .GET → s.head.method ≠ .HEAD → f.Code = 405 ∧ f.Body = [] ∧ f.Headers = [⟨b!"Allow", b!"GET"⟩]) ∧
      (s.path = b!"/" → f.Code = 405 ∧ f.Body = []) ∧
      ((∀ name, ¬ Names s.path name) → s.path ≠ b!"/" → f.Code = 404 ∧ f.Body = []) := by
    intro hn
    obtain ⟨h, r, f, r', left, hc, hrun, g1, g2, g3⟩ := hserve (fun he => hn ((dyn_traceable E.F s).1 (hech.1 he)))
    obtain ⟨f', k1, -, k2, k3⟩ := dyn_answers E.F hpath del.params hc
    rw [k1] at hrun
    cases hrun
    rw [hmeth] at k3
    exact ⟨f, g1, by rw [g2, sentBody, k2], g3, k3⟩
  refine ⟨fun name n1 n2 n hn => ?_, fun hp hm => ?_, fun hn hp => ?_⟩
  · have named : Names s.path name := ⟨n1, n2, n, hn⟩
    refine ⟨fun hm => ?_, fun hm => ?_, fun hm => ?_, fun hm => ?_⟩
    · obtain ⟨f, g1, g2, -, k, -⟩ := answered (by rw [hm]; rintro ⟨h, -⟩; cases h)
      obtain ⟨k1, k2⟩ := k name named (.inl hm)
      exact ⟨g1.trans k1, by rw [g2, hm, if_neg (by decide), k2]⟩
    · obtain ⟨f, g1, g2, -, k, -⟩ := answered (by rw [hm]; rintro ⟨h, -⟩; cases h)
      obtain ⟨k1, k2⟩ := k name named (.inr hm)
      exact ⟨g1.trans k1, by rw [g2, hm, if_pos rfl]⟩
    · exact (hecho (hech.2 ((dyn_traceable E.F s).2 ⟨hm, .inl ⟨name, named⟩⟩))).1
    · obtain ⟨f, g1, g2, ⟨ds, -, g3⟩, -, k, -⟩ := answered (by rintro ⟨h, -⟩; exact hm (by rw [h]; simp))
      obtain ⟨k1, k2, k3⟩ := k name named (by intro h; exact hm (by rw [h]; simp)) (by intro h; exact hm (by rw [h]; simp))
      refine ⟨g1.trans k1, by rw [g2, k2]; simp, ?_⟩
      rw [g3, k3]
      have : stripOWS b!"GET" = b!"GET" := by decide
      simp [this]
  · obtain ⟨f, g1, g2, -, -, -, k, -⟩ := answered (by rintro ⟨h, -⟩; exact hm h)
    obtain ⟨k1, k2⟩ := k hp
    exact ⟨g1.trans k1, by rw [g2, k2]; simp⟩
  · have no : ∀ name, ¬ Names s.path name := by
      rintro name ⟨n1, n2, n, h⟩
      exact hn ⟨name, n, n1, n2, h⟩
    obtain ⟨f, g1, g2, -, -, -, -, k⟩ := answered (by rintro ⟨-, ⟨name, h⟩ | h⟩; exact no name h; exact hp h)
    obtain ⟨k1, k2⟩ := k no hp
    exact ⟨g1.trans k1, by rw [g2, k2]; simp⟩


/-! ### examples/helloworld_norouter -/

/-- **C102**, examples/helloworld_norouter. Whatever well-formed requests are sent to it one after another on a connection, and then a malformed or over-limit head in which a method is named, whose fault is not the version: each request is answered, in
order, with the same greeting, without the body if the method is HEAD; the malformed one with the status of its fault and no body. -/
theorem C102_norouter (E : Setup σ (Simple.Router Act)) (dec : DecodesChunked E.P) (router : E.router = Simple.impl Act) (enc : EncToken) (remote : Bytes)
    (cl : Client) (quiet : Quiet cl) (writes : NoWriteError cl) (post : List (Bytes × Option GoErr))
    (ss : List Sending) (ok : ∀ s ∈ ss, SendableWith E.F Config.default s) (keep : ∀ s ∈ ss, KeepsOpen s.head)
    (bad : Bytes) (e : Status.HTTPError) (fits : RequestLineFits (headLimits Config.default).line bad) (clean : CleanStream bad)
    (fault : HeadFault (headLimits Config.default) bad e) (version : e ≠ Status.ErrUnsupportedProtocol) (meth : Method) (named : NamesMethod bad meth)
    (stream : cl.stream = ss.flatMap Sending.bytes ++ bad) :
    ∃ frames msgs last,
      (serve E (newConn E.P Config.default enc remote ⟨doingHandler E.F, doingErrors text⟩ (followedBy cl post))).1.client.written = cl.written ++ frames ∧
      readReplies (ss.map (fun s => s.head.method) ++ [meth]) frames.flatten = some (msgs ++ [last]) ∧ msgs.length = ss.length ∧
      (∀ i : Nat, ∀ (s : Sending) (m : Msg), ss[i]? = some s → msgs[i]? = some m →
        m.code = 200 ∧ m.rest = (if s.head.method = .HEAD then [] else b!"<h1>How are you doing?</h1>") ∧ (b!"Hello", b!"world") ∈ m.fields) ∧
      last.code = e.Code ∧ last.rest = [] := by
  have run : ∀ r, ∃ f, doingHandler E.F r = pure (f, r) ∧ (∀ p, Readable (Config.default.defaultHeaders.getD []) p f) ∧ f.Attachment.content = none ∧
      f.Code = 200 ∧ f.Body = b!"<h1>How are you doing?</h1>" ∧ f.Headers = [⟨b!"Hello", b!"world"⟩] := by
    intro r
    refine ⟨_, ?_, fun p => readable_plain p 200 [⟨b!"Hello", b!"world"⟩] b!"<h1>How are you doing?</h1>" (by unfold NameOK NoBreak; decide) (by decide) (by decide) (by decide), rfl, rfl, rfl, rfl⟩
    rw [doingHandler, hello_header]
    rfl
  have pol : Polite E (doingHandler E.F) := polite_pure E _ (fun r => by obtain ⟨f, h, -⟩ := run r; exact ⟨f, h⟩)
  have polErr : Polite E (doingErrors text) := polite_pure E _ (fun r => ⟨_, rfl⟩)
  obtain ⟨frames, msgs, last, h1, h2, h3, h4, seen, world, f, r', left, -, -, hr, -, h5, h6, -⟩ :=
    C100_two_functions E dec router Config.default (by decide) (default_defaults_any E.F) enc remote (doingHandler E.F) (doingErrors text) (fun _ => True)
      pol.request polErr
      (fun _ _ _ _ _ seen world _ _ => by
        obtain ⟨f, g1, g2, -⟩ := run seen
        exact ⟨f, seen, ⟨world.1, world.2, false⟩, by rw [g1]; rfl, rfl, g2 _⟩)
      (by decide) cl quiet writes post ss (fun s hs => ⟨ok s hs, trivial⟩) keep bad e fits clean fault version meth named
      (fun r world _ => ⟨Fields.new.code e.Code, failing r (.http e), world, rfl, default_readable r.Proto e (fault_errors fault)⟩) stream
  refine ⟨frames, msgs, last, h1, h2, h3, ?_, ?_, ?_⟩
  · intro i s m hi hm
    obtain ⟨_, _, seen, world, f, r', left, -, hrun, -, g1, g2, ds, -, g3⟩ := h4 i s m hi hm
    obtain ⟨f', k1, -, k2, k3, k4, k5⟩ := run seen
    rw [k1] at hrun
    cases hrun
    refine ⟨g1.trans k3, by rw [g2, sentBody, k2, k4], ?_⟩
    rw [g3, k5]
    have : stripOWS b!"world" = b!"world" := by decide
    simp [this]
  · cases hr
    exact h5
  · cases hr
    rw [h6]
    split <;> rfl

/-! ### examples/middlewares -/

/-- **C102**, examples/middlewares. A request for its route runs the middleware of the outer group, then that of the inner one, then the handler, and then what comes after it in both middlewares, the inner one first. (The message of the second middleware says that it
runs before the first one. It does not.) -/
theorem C102_middlewares (F : Fold) {env : Env Logged} {rt : Runtime Logged} (made : make F text env middlewares = some rt) (req : Request)
    (path : ∃ n, req.Path = b!"/api/v1/hello" ++ List.replicate n 47) (method : req.Method = .GET ∨ req.Method = .HEAD) :
    ∃ act r', rt.onRequest F req = some (act, rt) ∧ ∀ log, act log = ((Fields.new, r'), log ++ [b!"running middleware before handler", b!"running second middleware before first one", b!"running handler",
      b!"running second middleware after first one", b!"running middleware after handler"]) := by
  have hd : declared middlewares = [((b!"/api/v1/hello", .GET), helloWorldMiddleware (secondMiddleware beautifulHandler))] := rfl
  have hmeth : methodsOf middlewares b!"/api/v1/hello" = [.GET] := by
    unfold methodsOf
    rw [hd]
    rfl
  have stat : Static middlewares := by
    unfold Static
    rw [hd]
    intro d hdd
    rw [List.mem_singleton.1 hdd]
    show (123 : Byte) ∉ b!"/api/v1/hello"
    decide
  obtain ⟨n, hn⟩ := path
  have hp : (arriving middlewares req).Path = b!"/api/v1/hello" := by
    show UriNormalize.normalize req.Path = _
    rw [hn]
    exact C43_trailing_slashes_partial b!"/api/v1/hell" 111 n (by decide) (by decide)
  have hm : (arriving middlewares req).Method = req.Method := rfl
  have e : rt.onRequest F req = some (helloWorldMiddleware (secondMiddleware beautifulHandler) (allowing (arriving middlewares req) (methodsOf middlewares (arriving middlewares req).Path)), rt) := by
    rcases method with h | h
    · exact C35_registered made stat req _ (by rw [hp, hm, h, hd]; exact List.mem_singleton.2 rfl) rfl
    · exact C35_head made stat req _ rfl (hm.trans h) (by rw [hp, hmeth]; simp) (by rw [hp, hd]; exact List.mem_singleton.2 rfl)
  refine ⟨_, allowing (arriving middlewares req) (methodsOf middlewares (arriving middlewares req).Path), e, ?_⟩
  intro log
  show (_, log ++ _ ++ _ ++ _ ++ _ ++ _) = _
  simp

/-! ### examples/connhijack -/

/-- As `program_tame`, for handlers which may hijack the connection. -/
theorem program_tame_any {ops : List (Op Act)} {E : Setup σ (Runtime Act)} (router : E.router = Router.impl E.F .panic)
    (made : make E.F text env ops = some rt) (mutators : ∀ r, Untouched r (mutated ops r))
    (leave : AllHandlers E.F text ops (fun h => ∀ r w f r', ((h r).run E.P E.maxAlloc w).1 = some (f, r') → Untouched r r')) :
    Tame E rt := by
  have arrives : ∀ r, Untouched r (arriving ops r) := fun r => (mutators r).normalised _
  intro history req w f req' hq hr
  obtain ⟨b, hb⟩ := after_buff router made history
  rw [hb, router] at hr
  simp only [Router.impl] at hr
  have fin : ∀ r', Untouched req r' → (r'.Query.parsed = false → r'.Query.params.pairs = []) ∧ r'.Remote = req.Remote ∧ r'.Proto = req.Proto :=
    fun r' h => ⟨h.query hq, h.remote, h.proto⟩
  rcases request_known made (C41_always_one E.F text ops) b req with ⟨h, r, hk, hp, h1⟩ | ⟨-, f', r, b', hp, h1⟩ | ⟨-, -, h1⟩
  · rw [h1, Option.getD_some] at hr
    exact fin _ (((arrives req).passed hp).trans (program_good leave hk r w f req' hr))
  · rw [h1] at hr
    cases hr
    exact fin _ ((arrives req).passed hp)
  · rw [h1] at hr
    cases hr

/-- What the loop reads, and that it does nothing else. -/
theorem listen_reads (P : ChunkedParser σ) (M : Nat) {post : List (Bytes × Option GoErr)} (silent : Silent post) : ∀ (fuel : Nat) (said : List Bytes) (b : Body σ) (c : Client), Quiet c →
    ∃ more left, (listen fuel said).run P M ⟨b, followedBy c post, true⟩ = (some (said ++ more), left) ∧ left.hijacked = true ∧ left.client.written = c.written ∧
      more.flatten <+: c.stream ∧ (more.length < fuel → more.flatten = c.stream) := by
  intro fuel
  induction fuel with
  | zero => intro said b c q; exact ⟨[], _, by rw [List.append_nil]; rfl, rfl, rfl, by simp, fun h => by simp at h⟩
  | succ fuel ih =>
    intro said b c q
    by_cases hpend : c.pending.length > 0
    · have hr : (followedBy c post).read = ((c.pending, none), followedBy { c with pending := [] } post) := by
        rw [Client.read, if_pos (show (followedBy c post).pending.length > 0 from hpend)]; rfl
      obtain ⟨more, left, h1, h2, h3, h4, h5⟩ := ih (said ++ [c.pending]) b { c with pending := [] } q
      refine ⟨c.pending :: more, left, ?_, h2, h3, ?_, ?_⟩
      · simp only [listen, Act.run, hr]
        rw [show said ++ c.pending :: more = said ++ [c.pending] ++ more by simp]
        exact h1
      · simpa [Client.stream] using h4
      · intro hl; simp at hl; simpa [Client.stream] using h5 hl
    · have h0 : c.pending = [] := List.eq_nil_of_length_eq_zero (by omega)
      cases hc : c.conn with
      | cons ev conn =>
        obtain ⟨d, err⟩ := ev
        have herr : err = none := q (d, err) (by rw [hc]; simp)
        subst herr
        have hr : (followedBy c post).read = ((d, none), followedBy { c with conn := conn } post) := by
          rw [Client.read, if_neg (show ¬ (followedBy c post).pending.length > 0 from hpend)]
          simp only [followedBy, hc]; rfl
        obtain ⟨more, left, h1, h2, h3, h4, h5⟩ := ih (said ++ [d]) b { c with conn := conn } (fun ev h => q ev (by rw [hc]; simp [h]))
        have hs : c.stream = d ++ ({ c with conn := conn } : Client).stream := by simp [Client.stream, h0, hc]
        refine ⟨d :: more, left, ?_, h2, h3, ?_, ?_⟩
        · simp only [listen, Act.run, hr]
          rw [show said ++ d :: more = said ++ [d] ++ more by simp]
          exact h1
        · rw [hs]; simpa using h4
        · intro hl; simp at hl; rw [hs]; simpa using h5 hl
      | nil =>
        have hs : c.stream = [] := by simp [Client.stream, h0, hc]
        have hr : ∃ d e c', (followedBy c post).read = ((d, some e), c') ∧ c'.written = c.written := by
          rw [Client.read, if_neg (show ¬ (followedBy c post).pending.length > 0 from hpend)]
          simp only [followedBy, hc]
          cases post with
          | nil => exact ⟨_, _, _, rfl, rfl⟩
          | cons ev post =>
            obtain ⟨d, err⟩ := ev
            cases err with
            | none => exact absurd rfl (silent _ rfl)
            | some e => exact ⟨_, _, _, rfl, rfl⟩
        obtain ⟨d, e, c', hr, hw⟩ := hr
        refine ⟨[], ⟨b, c', true⟩, ?_, rfl, hw, by simp, fun _ => by rw [hs]; rfl⟩
        simp only [listen, Act.run, hr, List.append_nil]
        rfl


/-- The handler leaves its request as it is. -/
theorem hijack_untouched (P : ChunkedParser σ) (M : Nat) (fuel : Nat) (r : Request) (w : Act.World σ) (f : Fields) (r' : Request)
    (h : ((hijackHandler fuel r).run P M w).1 = some (f, r')) : Untouched r r' := by
  have same : Untouched r r := ⟨rfl, rfl, rfl, rfl, rfl, id⟩
  simp only [hijackHandler, Act.run] at h
  split at h
  · cases h; exact same
  · rw [run_bind] at h
    split at h
    · cases h; exact same
    · cases h

theorem hijack_declared (fuel : Nat) : declared (connhijack fuel) = [((b!"/", .GET), hijackHandler fuel)] := rfl

/-- **C102**, examples/connhijack. A client sends a request for `/` with GET or HEAD, and then whatever it likes, in whatever segmentation. Then the server writes nothing at all, and serving ends; what the handler has logged by then are the bytes which came after the request, all of them and in their order.
(The model reads at most `fuel` times; the code, until the end.) -/
theorem C102_connhijack (E : Setup σ (Runtime Act)) (dec : DecodesChunked E.P) (router : E.router = Router.impl E.F .panic) (enc : EncToken) (remote : Bytes) (fuel : Nat)
    (made : make E.F text env (connhijack fuel) = some rt) (cl : Client) (quiet : Quiet cl) (post : List (Bytes × Option GoErr)) (silent : Silent post)
    (s : Sending) (ok : SendableWith E.F Config.default s) (path : s.path = b!"/") (method : s.head.method = .GET ∨ s.head.method = .HEAD)
    (after : Bytes) (stream : cl.stream = s.bytes ++ after) :
    (serve E (newConn E.P Config.default enc remote rt (followedBy cl post))).2 = some .hijacked ∧
    (serve E (newConn E.P Config.default enc remote rt (followedBy cl post))).1.client.written = cl.written ∧
    ∃ seen world ans left said, (serve E (newConn E.P Config.default enc remote rt (followedBy cl post))).1.visits = [.request seen world (some ans) left] ∧
      Delivered E Config.default.maxEncodingTokens.toNat remote post { Encryption := enc } s after seen world ∧
      (Act.hijack fun _ => listen fuel []).run E.P E.maxAlloc ⟨world.1, world.2, false⟩ = (some said, left) ∧
      said.flatten <+: after ∧ (said.length < fuel → said.flatten = after) := by
  have tame : Tame E rt := program_tame_any router made (fun r => ⟨rfl, rfl, rfl, rfl, rfl, id⟩) (by
    refine ⟨?_, fun c hc => (by cases hc), ?_⟩
    · rw [hijack_declared]
      intro d hd
      rw [List.mem_singleton.1 hd]
      exact fun r w f r' => hijack_untouched E.P E.maxAlloc fuel r w f r'
    · intro e he
      have : errorHandlers (Spec.Router.defaults E.F text) (connhijack fuel) = Spec.Router.defaults E.F text := rfl
      rw [this] at he
      simp only [Spec.Router.defaults, List.mem_cons, List.not_mem_nil, or_false] at he
      rcases he with rfl | rfl <;> exact (polite_pure E _ (fun r => ⟨_, rfl⟩)).request)
  have stat : Static (connhijack fuel) := by
    unfold Static
    rw [hijack_declared]
    intro d hd
    rw [List.mem_singleton.1 hd]
    show (123 : Byte) ∉ b!"/"
    decide
  have hmeth : methodsOf (connhijack fuel) b!"/" = [.GET] := by
    unfold methodsOf
    rw [hijack_declared]
    rfl
  obtain ⟨vs, frames, why, h1, h2⟩ := serve_conversation E dec (L := headLimits Config.default) (limit := Config.default.bodyMaxSize.toNat)
      (by unfold maxUint; decide) (remote := remote) after post (fun _ _ _ _ _ _ _ _ => True)
      (by
        intro env c cl1 _ _ _ _
        obtain ⟨why, hw⟩ := serve_ends E c
        obtain ⟨⟨vs, hv⟩, frames, hf⟩ := serve_grown E c
        exact ⟨vs, frames, why, ⟨hw, hv.symm, hf.symm⟩, trivial⟩)
      [s] { Encryption := enc } (newConn E.P Config.default enc remote rt (followedBy cl post)) cl tame
      (newConn_idle E Config.default enc remote rt _) rfl quiet (by intro t ht; rw [List.mem_singleton.1 ht]; exact ok) (by rw [stream]; simp)
  have key : ∀ seen world act, Delivered E Config.default.maxEncodingTokens.toNat remote post { Encryption := enc } s after seen world → Answers E rt seen world act →
      ∃ ans left said, act = (some ans, left) ∧ left.hijacked = true ∧ left.client.written = world.2.written ∧
        (Act.hijack fun _ => listen fuel []).run E.P E.maxAlloc ⟨world.1, world.2, false⟩ = (some said, left) ∧
        said.flatten <+: after ∧ (said.length < fuel → said.flatten = after) := by
    intro seen world act del hact
    have hp : (arriving (connhijack fuel) seen).Path = b!"/" := by
      show UriNormalize.normalize seen.Path = _
      rw [del.path, path]
      decide
    have hm : (arriving (connhijack fuel) seen).Method = s.head.method := del.carries.method
    obtain ⟨r, hr⟩ : ∃ r, rt.onRequest E.F seen = some (hijackHandler fuel r, rt) := by
      rcases method with h | h
      · exact ⟨_, C35_registered made stat seen _ (by rw [hp, hm, h, hijack_declared]; exact List.mem_singleton.2 rfl) rfl⟩
      · exact ⟨_, C35_head made stat seen _ rfl (hm.trans h) (by rw [hp, hmeth]; simp) (by rw [hp, hijack_declared]; exact List.mem_singleton.2 rfl)⟩
    obtain ⟨b, c, k1, k2, k3, k4⟩ := C50_rest_readable (β := Option GoErr) E del (pure ()) () _ rfl rfl
    have seized : ∀ {β : Type} (k : Option GoErr → Act β),
        (Act.hijack k).run E.P E.maxAlloc ⟨world.1, world.2, false⟩ = (k none).run E.P E.maxAlloc ⟨b, followedBy c post, true⟩ := by
      intro β k
      have h : (Act.hijack fun e => pure e).run E.P E.maxAlloc ⟨world.1, world.2, false⟩ = (some none, ⟨b, followedBy c post, true⟩) := k4 (fun _ e => pure e)
      rw [show Act.hijack k = (Act.hijack fun e => pure e).bind k from rfl, run_bind, h]
    obtain ⟨more, left, l1, l2, l3, l4, l5⟩ := listen_reads E.P E.maxAlloc silent fuel [] b c k2
    rw [List.nil_append] at l1
    rw [k1] at l4 l5
    refine ⟨(Fields.new, r), left, more, ?_, l2, l3.trans k3, by rw [seized]; exact l1, l4, l5⟩
    unfold Answers at hact
    rw [router] at hact
    simp only [Router.impl, hr] at hact
    rw [← hact]
    show (hijackHandler fuel r).run _ _ _ = _
    rw [hijackHandler, seized]
    show ((listen fuel []).bind _).run _ _ _ = _
    rw [run_bind, l1]
    rfl
  generalize hss : [s] = ss at h2
  have one : ∀ t ts, [s] = t :: ts → ts.flatMap Sending.bytes ++ after = after ∧ t = s := by
    intro t ts h; cases h; exact ⟨rfl, rfl⟩
  cases h2 with
  | done _ => cases hss
  | panicked del hact _ _ =>
    obtain ⟨e1, rfl⟩ := one _ _ hss
    rw [e1] at del
    obtain ⟨_, _, _, h, -⟩ := key _ _ _ del hact
    cases h
  | hijacked del hact hw _ =>
    obtain ⟨e1, rfl⟩ := one _ _ hss
    rw [e1] at del
    obtain ⟨ans, left, said, h, -, h3, h4⟩ := key _ _ _ del hact
    cases h
    refine ⟨h1.why, ?_, _, _, _, _, said, by rw [h1.visits]; rfl, del, h4⟩
    rw [h1.written]
    rw [h3] at hw
    have : frames = [] := by simpa using hw
    rw [this]
    simp; rfl
  | broken del hact hh _ _ =>
    obtain ⟨e1, rfl⟩ := one _ _ hss
    rw [e1] at del
    obtain ⟨ans, left, said, h, h3, -⟩ := key _ _ _ del hact
    cases h
    rw [hh] at h3; cases h3
  | closed del hact hh _ _ _ _ =>
    obtain ⟨e1, rfl⟩ := one _ _ hss
    rw [e1] at del
    obtain ⟨ans, left, said, h, h3, -⟩ := key _ _ _ del hact
    cases h
    rw [hh] at h3; cases h3
  | next del hact hh _ _ _ =>
    obtain ⟨e1, rfl⟩ := one _ _ hss
    rw [e1] at del
    obtain ⟨ans, left, said, h, h3, -⟩ := key _ _ _ del hact
    cases h
    rw [hh] at h3; cases h3


end

/-! ### The hypotheses are met -/

theorem asked_ok {m : Method} {target : Bytes} (h1 : m ≠ .Unknown) (h2 : target ≠ [] ∧ 10 ∉ target ∧ 63 ∉ target) (h3 : 37 ∉ target)
    (h4 : (asked m target b!"HTTP/1.1").head.lineLength ≤ (headLimits Config.default).line) :
    SendableWith Fold.ascii Config.default (asked m target b!"HTTP/1.1") ∧ (asked m target b!"HTTP/1.1").head.last b!"upgrade" = none ∧ KeepsOpen (asked m target b!"HTTP/1.1").head := by
  have v' : ∀ p, IsVersion b!"HTTP/1.1" p → persists p [] = true := by
    rintro p ⟨sep, ⟨h, -⟩ | ⟨-, rfl⟩ | ⟨h, -⟩⟩
    · simp at h
    · decide
    · simp at h
  refine ⟨⟨⟨h1, h2, by simp [asked], ⟨⟨Proto.HTTP11, 46, .inr (.inl ⟨rfl, rfl⟩)⟩, by simp [asked], by simp [asked]⟩, by simp [asked]⟩, by simp [Head.CleanNames, asked], by simp [Head.NoBareEmpty, asked],
    ⟨h4, by simp [asked], by simp [asked], by simp [asked], by simp [asked]⟩, pct_lit h3, .sized (by simp [asked, Head.isChunked, Head.last]) rfl rfl, by simp [asked]⟩, rfl, ?_⟩
  exact ⟨by simp [asked, Head.last], by simpa [asked, Head.last] using v', by simp [asked, Head.last]⟩

/-- Requests for `/`, and another one. -/
def greeting : List Sending :=
  [asked .GET b!"/" b!"HTTP/1.1", asked .HEAD b!"/" b!"HTTP/1.1", asked .TRACE b!"/" b!"HTTP/1.1", asked .PATCH b!"/" b!"HTTP/1.1", asked .GET b!"/hello" b!"HTTP/1.1", asked .TRACE b!"/" b!"HTTP/1.1"]

/-- C102: the hypotheses about examples/helloworld are met by these requests, and this is what the client reads. -/
example : (∀ s ∈ greeting, SendableWith dinerSetup.F Config.default s ∧ s.head.last b!"upgrade" = none ∧ KeepsOpen s.head) ∧
    (make dinerSetup.F (fun _ => []) sampleEnv (helloworld dinerSetup.F)).isSome ∧
    (make dinerSetup.F (fun _ => []) sampleEnv (helloworld dinerSetup.F)).bind (fun rt => smallReplies rt greeting) =
      some [(200, b!"<h1>Hello, world!</h1>"), (200, []), (200, b!"TRACE / HTTP/1.1\r\nContent-Length: 0\r\n\r\n"), (405, []), (404, []),
        (200, b!"TRACE / HTTP/1.1\r\nContent-Length: 0\r\n\r\nTRACE / HTTP/1.1\r\nContent-Length: 0\r\n\r\n")] := by
  refine ⟨?_, by decide +kernel, by decide +kernel⟩
  intro s hs
  simp only [greeting, List.mem_cons, List.not_mem_nil, or_false] at hs
  rcases hs with rfl | rfl | rfl | rfl | rfl | rfl <;> exact asked_ok (by decide) (by decide) (by decide) (by decide +kernel)

/-- Requests with a name and without one. -/
def naming : List Sending :=
  [asked .GET b!"/hello/you" b!"HTTP/1.1", asked .GET b!"/hello/you//" b!"HTTP/1.1", asked .HEAD b!"/hello/you" b!"HTTP/1.1", asked .PUT b!"/hello/you" b!"HTTP/1.1",
    asked .GET b!"/" b!"HTTP/1.1", asked .GET b!"/hello/" b!"HTTP/1.1", asked .GET b!"/hello/you/all" b!"HTTP/1.1"]

/-- C102: the hypotheses about examples/dynroute are met by these requests, and this is what the client reads. -/
example : (∀ s ∈ naming, (SendableWith dinerSetup.F Config.default s ∧ ∃ p, s.path = SLASH :: p) ∧ s.head.last b!"upgrade" = none ∧ KeepsOpen s.head) ∧
    (make dinerSetup.F (fun _ => []) sampleEnv (dynroute dinerSetup.F)).isSome ∧
    (make dinerSetup.F (fun _ => []) sampleEnv (dynroute dinerSetup.F)).bind (fun rt => smallReplies rt naming) =
      some [(200, b!"your world-name is you"), (200, b!"your world-name is you"), (200, []), (405, []), (405, []), (404, []), (404, [])] := by
  refine ⟨?_, by decide +kernel, by decide +kernel⟩
  intro s hs
  have ok : ∀ m p, m ≠ .Unknown → (SLASH :: p ≠ [] ∧ 10 ∉ SLASH :: p ∧ 63 ∉ SLASH :: p) → 37 ∉ SLASH :: p → (asked m (SLASH :: p) b!"HTTP/1.1").head.lineLength ≤ (headLimits Config.default).line →
      (SendableWith Fold.ascii Config.default (asked m (SLASH :: p) b!"HTTP/1.1") ∧ ∃ q, (asked m (SLASH :: p) b!"HTTP/1.1").path = SLASH :: q) ∧
        (asked m (SLASH :: p) b!"HTTP/1.1").head.last b!"upgrade" = none ∧ KeepsOpen (asked m (SLASH :: p) b!"HTTP/1.1").head := by
    intro m p h1 h2 h3 h4
    obtain ⟨a, b⟩ := asked_ok h1 h2 h3 h4
    exact ⟨⟨a, p, rfl⟩, b⟩
  simp only [naming, List.mem_cons, List.not_mem_nil, or_false] at hs
  rcases hs with rfl | rfl | rfl | rfl | rfl | rfl | rfl <;> exact ok _ _ (by decide) (by decide) (by decide) (by decide +kernel)

/-- C102: for examples/helloworld_norouter, two requests and a malformed head (see also the example of C100), and what the client reads. -/
example : (∀ s ∈ [asked .GET b!"/" b!"HTTP/1.1", asked .HEAD b!"/x" b!"HTTP/1.1"], SendableWith simple.F Config.default s ∧ s.head.last b!"upgrade" = none ∧ KeepsOpen s.head) ∧
    (readReplies [.GET, .HEAD, .Unknown] (serve simple (newConn simple.P Config.default 1 b!"1.2.3.4" ⟨doingHandler Fold.ascii, doingErrors (fun _ => [])⟩
      (followedBy (arrive [[asked .GET b!"/" b!"HTTP/1.1", asked .HEAD b!"/x" b!"HTTP/1.1"].flatMap Sending.bytes ++ brewing.take 7, brewing.drop 7]) []))).1.client.written.flatten).map
      (List.map (fun m => (m.code, m.rest))) = some [(200, b!"<h1>How are you doing?</h1>"), (200, []), (501, [])] := by
  refine ⟨?_, by decide +kernel⟩
  intro s hs
  simp only [List.mem_cons, List.not_mem_nil, or_false] at hs
  rcases hs with rfl | rfl <;> exact asked_ok (by decide) (by decide) (by decide) (by decide +kernel)

/-- C102: the router of examples/middlewares can be made. -/
example : (make Fold.ascii (fun _ => []) sampleEnv middlewares).isSome := by decide +kernel

/-- C102: for examples/connhijack: the router can be made, a client sends a request and three words, in four segments, and hears nothing. -/
example : SendableWith dinerSetup.F Config.default (asked .GET b!"/" b!"HTTP/1.1") ∧
    (make dinerSetup.F (fun _ => []) sampleEnv (connhijack 9)).map (fun rt =>
      let r := serve dinerSetup (newConn dinerSetup.P Config.default 1 b!"1.2.3.4" rt
        (arrive [(asked .GET b!"/" b!"HTTP/1.1").bytes.take 5, (asked .GET b!"/" b!"HTTP/1.1").bytes.drop 5 ++ b!"all", b!"that", b!"jazz"]))
      (r.2, r.1.client.written)) = some (some .hijacked, []) := by
  refine ⟨(asked_ok (by decide) (by decide) (by decide) (by decide +kernel)).1, by decide +kernel⟩

/-- What is logged is what came: here, a first segment which was cut behind a request, and two more. -/
example : ((Act.hijack fun _ => listen 9 []).run refParser (2 ^ 32) ⟨Body.new refParser 100, { pending := b!"all", conn := [(b!"that", none), (b!"jazz", none)] }, false⟩).1 =
    some [b!"all", b!"that", b!"jazz"] := by decide +kernel


end Indigo.Props
