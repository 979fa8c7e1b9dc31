/-
C83 A web site, end to end.
-/
import Verif.Spec.Site
import Verif.Props.Replies
import Verif.Props.RootMiddlewares
import Verif.Props.Address

namespace Indigo.Props
open Indigo.Serve Indigo.Spec Indigo.Router Indigo.Spec.Router

variable {σ : Type}

/-! ### What the registrations of a site declare -/

private theorem site_places (pages : List Page) : places (site pages) = [⟨[0], []⟩] := by
  unfold places site
  generalize ([⟨[0], []⟩] : List Place) = ps
  induction pages with
  | nil => rfl
  | cons p pages ih => exact ih

private theorem site_uses (pages : List Page) (r : Nat) : uses (site pages) r = [] := by
  unfold uses site
  induction pages with
  | nil => rfl
  | cons p pages ih => exact ih

private theorem site_around (pages : List Page) : around (site pages) 0 = [] := by
  rw [around, site_places]
  simp [site_uses]

private theorem site_prefix (pages : List Page) : prefixOf (site pages) 0 = [] := by
  rw [prefixOf, site_places]; rfl

private theorem site_declared (pages : List Page) :
    declared (site pages) = pages.map (fun p => ((UriNormalize.normalize p.path, p.method), p.handler)) := by
  have h1 := site_prefix pages
  have h2 := site_around pages
  unfold declared
  generalize prefixOf (site pages) = P at h1 ⊢
  generalize around (site pages) = A at h2 ⊢
  unfold site
  induction pages with
  | nil => rfl
  | cons p pages ih =>
    simp only [List.map_cons, List.flatMap_cons]
    rw [ih, h1, h2]
    rfl

private theorem site_catchers (pages : List Page) : catchers (site pages) = [] := by
  unfold catchers
  rw [List.flatMap_eq_nil_iff]
  intro op hop
  simp only [site, List.mem_map] at hop
  obtain ⟨p, -, rfl⟩ := hop
  rfl

private theorem site_errors (F : Fold) (text : GoErr → Bytes) (pages : List Page) :
    errorHandlers (defaults F text) (site pages) = defaults F text := by
  unfold errorHandlers
  rw [List.flatMap_eq_nil_iff.2 (fun op hop => by
    simp only [site, List.mem_map] at hop
    obtain ⟨p, -, rfl⟩ := hop
    rfl), site_uses, List.append_nil]
  simp [wrap, defaults]

private theorem site_handler404 (F : Fold) (text : GoErr → Bytes) (pages : List Page) :
    handlerFor F text (site pages) Status.NotFound = some (defaultAllErrorsHandler text) := by
  rw [handlerFor, site_errors]; rfl

private theorem site_handler405 (F : Fold) (text : GoErr → Bytes) (pages : List Page) :
    handlerFor F text (site pages) Status.MethodNotAllowed = some (defaultMethodNotAllowedHandler F text) := by
  rw [handlerFor, site_errors, ← defaults_eq]; rfl

private theorem site_mutators (pages : List Page) (n : Nat) : mutatorsIn (site pages) n 0 = [] := by
  cases n with
  | zero => rfl
  | succ n =>
    have h1 : kids (site pages) 0 = [] := by
      unfold kids
      rw [site_places]; rfl
    have h2 : ownMutators (site pages) 0 = [] := by
      unfold ownMutators
      rw [List.flatMap_eq_nil_iff]
      intro op hop
      simp only [site, List.mem_map] at hop
      obtain ⟨p, -, rfl⟩ := hop
      rfl
    rw [mutatorsIn, h1, h2]; rfl

private theorem site_mutated (pages : List Page) (req : Request) : mutated (site pages) req = req := by
  rw [mutated, site_mutators]; rfl

private theorem site_arriving (pages : List Page) (req : Request) :
    arriving (site pages) req = { req with Path := UriNormalize.normalize req.Path } := by
  rw [arriving, site_mutated]

private theorem pageAt_some {pages : List Page} {meth : Method} {path : Bytes} {p : Page} (h : pageAt pages meth path = some p) :
    ((UriNormalize.normalize path, meth), p.handler) ∈ declared (site pages) ∧ p ∈ pages := by
  have h1 := List.find?_some h
  have h2 := List.mem_of_find?_eq_some h
  simp only [decide_eq_true_eq] at h1
  rw [site_declared]
  refine ⟨List.mem_map.2 ⟨p, h2, ?_⟩, h2⟩
  rw [h1.1, h1.2]

private theorem site_methods (pages : List Page) (path : Bytes) :
    methodsOf (site pages) (UriNormalize.normalize path) = methodsAt pages path := by
  unfold methodsOf methodsAt
  refine List.filter_congr fun mt _ => ?_
  rw [site_declared, Bool.eq_iff_iff, pageAt, List.find?_isSome]
  simp only [List.any_map, List.any_eq_true, Function.comp, decide_eq_true_eq, Prod.mk.injEq]
  constructor
  · rintro ⟨p, h1, h2, h3⟩; exact ⟨p, h1, h3, h2⟩
  · rintro ⟨p, h1, h2, h3⟩; exact ⟨p, h1, h3, h2⟩

private theorem methodsAt_mem (pages : List Page) (path : Bytes) (mt : Method) :
    mt ∈ methodsAt pages path ↔ (pageAt pages mt path).isSome = true := by
  unfold methodsAt
  rw [List.mem_filter]
  constructor
  · exact fun h => h.2
  · intro h
    exact ⟨by cases mt <;> simp, h⟩

/-! ### The router of a site -/

variable {text : GoErr → Bytes} {env : Env Act} {pages : List Page} {rt : Runtime Act}

/-- The router after requests. -/
private theorem site_after {E : Setup σ (Runtime Act)} (router : E.router = Router.impl E.F .panic)
    (hm : make E.F text env (site pages) = some rt) (history : List Request) :
    ∃ b, routerAfter E rt history = { rt with traceBuff := b } := by
  obtain ⟨b, h⟩ := history_buff hm .panic (history.map .request)
  refine ⟨b, ?_⟩
  rw [← h, routerAfter, Spec.Virtual.after, List.foldl_map, router]
  rfl

private theorem site_serving {E : Setup σ (Runtime Act)} (router : E.router = Router.impl E.F .panic)
    (history : List Request) : ∀ (rt rt' : Runtime Act), serving E.F rt history = some rt' → routerAfter E rt history = rt' := by
  induction history with
  | nil => intro rt rt' h; cases h; rfl
  | cons r rs ih =>
    intro rt rt' h
    rw [serving] at h
    cases ho : rt.onRequest E.F r with
    | none => rw [ho] at h; cases h
    | some x =>
      rw [ho] at h
      rw [routerAfter_cons]
      have : (E.router.onRequest rt r).2 = x.2 := by rw [router]; simp only [Router.impl, ho]; rfl
      rw [this]
      exact ih _ _ h

/-- What a site does for a request: the page is called, or the error response is given. -/
private theorem site_does {E : Setup σ (Runtime Act)} (router : E.router = Router.impl E.F .panic)
    (hm : make E.F text env (site pages) = some rt) (hs : Static (site pages)) (history : List Request) (r : Request)
    (notTrace : r.Method ≠ .TRACE) :
    match pageFor pages r.Method r.Path with
    | some p => p ∈ pages ∧ (E.router.onRequest (routerAfter E rt history) r).1 = p.handler (asRouted pages r)
    | none => ∃ f r', (E.router.onRequest (routerAfter E rt history) r).1 = pure (f, r') ∧ Passed (arriving (site pages) r) r' ∧
        (f = Fields.new.code 404 ∧ methodsAt pages r.Path = [] ∨
         f = { Fields.new.code 405 with Headers := [⟨b!"Allow", commas ((methodsAt pages r.Path).map Method.toBytes)⟩] } ∧
           methodsAt pages r.Path ≠ []) := by
  obtain ⟨rt', hserv⟩ := C35_no_panic hm hs history
  have hnt : traced (site pages) r = false := by
    unfold traced
    rw [site_arriving]
    simp [notTrace]
  have key : ∀ act, rt.onRequest E.F r = some (act, rt) → (E.router.onRequest (routerAfter E rt history) r).1 = act := by
    intro act h
    rw [site_serving router history rt rt' hserv, router]
    simp only [Router.impl]
    rw [C35_history hm hs history rt' hserv r hnt, h]
    rfl
  have ha := site_arriving pages r
  have hall : allowing (arriving (site pages) r) (methodsOf (site pages) (arriving (site pages) r).Path) = asRouted pages r := by
    rw [ha]
    simp only [allowing, asRouted, site_methods]
  have hmeth : (arriving (site pages) r).Method = r.Method := by rw [ha]
  have hpath : (arriving (site pages) r).Path = UriNormalize.normalize r.Path := by rw [ha]
  cases h1 : pageAt pages r.Method r.Path with
  | some p =>
    have : pageFor pages r.Method r.Path = some p := by rw [pageFor, h1]; rfl
    rw [this]
    refine ⟨(pageAt_some h1).2, key _ ?_⟩
    rw [C35_registered hm hs r p.handler (req' := arriving (site pages) r) (by
      rw [hpath, hmeth]; exact (pageAt_some h1).1) rfl, hall]
  | none =>
    have hno : ∀ mt, pageAt pages mt r.Path = none → mt ∉ methodsOf (site pages) (arriving (site pages) r).Path := by
      intro mt hmt
      rw [hpath, site_methods, methodsAt_mem, hmt]
      simp
    have fails : ∀ h : pageFor pages r.Method r.Path = none,
        ∃ f r', (E.router.onRequest (routerAfter E rt history) r).1 = pure (f, r') ∧ Passed (arriving (site pages) r) r' ∧
        (f = Fields.new.code 404 ∧ methodsAt pages r.Path = [] ∨
         f = { Fields.new.code 405 with Headers := [⟨b!"Allow", commas ((methodsAt pages r.Path).map Method.toBytes)⟩] } ∧
           methodsAt pages r.Path ≠ []) := by
      intro hf
      by_cases hms : methodsAt pages r.Path = []
      · rcases C39_not_registered hm hs r (req' := arriving (site pages) r) rfl (by rw [hpath, site_methods, hms]) with
          ⟨p, h, hc, -⟩ | ⟨-, h, hh, ho⟩
        · rw [site_catchers] at hc; cases hc
        · rw [site_handler404] at hh
          cases hh
          exact ⟨_, _, key _ ho, rfl, .inl ⟨rfl, hms⟩⟩
      · have hg : r.Method = .HEAD → pageAt pages .GET r.Path = none := by
          intro h
          rw [pageFor, h1, if_pos h] at hf
          simpa using hf
        obtain ⟨h, hh, ho⟩ := C35_method_not_allowed hm hs r (req' := arriving (site pages) r) rfl
          (by rw [hpath, site_methods]; exact hms) (hno _ (by rw [hmeth]; exact h1))
          (fun h => hno _ (hg (hmeth ▸ h))) (by rw [hmeth]; exact notTrace)
        rw [site_handler405] at hh
        cases hh
        rw [hall] at ho
        obtain ⟨f, e1, e2, e3, e4⟩ := C35_allow_header (m := Act) E.F text (failing (asRouted pages r) (.http Status.ErrMethodNotAllowed))
        refine ⟨_, _, key _ ho, ?_, .inr ⟨?_, hms⟩⟩
        · unfold Passed failing asRouted; rw [ha]
        · have h1 : E.F.eq b!"Allow" b!"content-type" = false := by simp [Fold.eq]
          have h2 : E.F.eq b!"Allow" b!"transfer-encoding" = false := by simp [Fold.eq]
          simp [Fields.header, h1, h2, Fields.error, Fields.code, Fields.new, failing, asRouted, Status.ErrMethodNotAllowed]
    by_cases hh : r.Method = .HEAD
    · cases h2 : pageAt pages .GET r.Path with
      | some p =>
        have : pageFor pages r.Method r.Path = some p := by rw [pageFor, h1, if_pos hh, h2]; rfl
        rw [this]
        refine ⟨(pageAt_some h2).2, key _ ?_⟩
        rw [C35_head hm hs r p.handler (req' := arriving (site pages) r) rfl (hmeth.trans hh) (hno _ (by rw [← hh]; exact h1))
          (by rw [hpath]; exact (pageAt_some h2).1), hall]
      | none =>
        have : pageFor pages r.Method r.Path = none := by rw [pageFor, h1, if_pos hh, h2]; rfl
        rw [this]
        exact fails this
    · have : pageFor pages r.Method r.Path = none := by rw [pageFor, h1, if_neg hh]; rfl
      rw [this]
      exact fails this

/-- The page's handler returns the request as it got it. -/
private theorem handler_run (P : ChunkedParser σ) (M : Nat) (p : Page) (r : Request) (w : Act.World σ) :
    (((p.handler r).run P M w).1 = none ∨ ∃ f, ((p.handler r).run P M w).1 = some (f, r)) ∧
      ((p.handler r).run P M w).2.hijacked = w.hijacked := by
  change ((Act.run P M (Act.bind (Act.body .bytes _) _) w).1 = none ∨ _) ∧ _
  simp only [Page.handler, Act.call, Bind.bind, Act.bind, Act.run]
  generalize Body.call P M (w.body, w.client) .bytes = x
  obtain ⟨a, s⟩ := x
  cases a <;> simp [Act.bind, Act.run, Pure.pure]
  split <;> simp [Act.run]

/-- The page gets the whole body. -/
private theorem handler_body (E : Setup σ (Runtime Act)) {T remote post e s after seen world} (p : Page) (r : Request)
    (del : Delivered E T remote post e s after seen world) (alloc : seen.ContentLength ≤ E.maxAlloc) :
    ∃ left, (p.handler r).run E.P E.maxAlloc ⟨world.1, world.2, false⟩ = (some (p.answer r s.body, r), left) ∧
      left.hijacked = false := by
  obtain ⟨b, hb, _⟩ := del.fresh
  obtain ⟨ds, b', c', hp, hds, -⟩ := del.body
  obtain ⟨w1, w2⟩ := world
  simp only at hb
  subst hb
  obtain ⟨f1, _, _, f4⟩ := Body.initFor_fresh b seen
  obtain ⟨k1, -⟩ := Body.bytes_pieces E.P E.maxAlloc hp f1 (by rw [f4]; exact alloc)
  have hc : (Body.call E.P E.maxAlloc (b.initFor seen, w2) .bytes).1 = .whole (some s.body) none := by
    simp only [Body.call, k1, Body.bytesAnswer, hds]
  simp only [Page.handler, Act.call, Bind.bind, Act.bind, Act.run]
  generalize Body.call E.P E.maxAlloc (b.initFor seen, w2) .bytes = x at hc
  obtain ⟨a, w⟩ := x
  simp only at hc
  subst hc
  exact ⟨_, rfl, rfl⟩

private theorem commas_noBreak {l : List Bytes} (h : ∀ x ∈ l, NoBreak x) : NoBreak (commas l) := by
  induction l with
  | nil => unfold NoBreak commas; decide
  | cons x l ih =>
    have h1 := h x (by simp)
    have h2 := ih (fun y hy => h y (by simp [hy]))
    cases l with
    | nil => exact h1
    | cons y l =>
      have hc : COMMA = (44 : Byte) := rfl
      unfold NoBreak at *
      rw [commas, hc]
      simp only [List.mem_append, List.mem_cons, not_or]
      exact ⟨⟨h1.1, by decide, h2.1⟩, ⟨h1.2, by decide, h2.2⟩⟩
      · intro h; cases h

/-- The request can be answered at all: its method is not TRACE (which the router answers itself), and what
it declares as its length can be allocated. -/
def Modest (maxAlloc : Nat) (s : Sending) : Prop := s.head.method ≠ .TRACE ∧ s.head.announced ≤ maxAlloc

private theorem modest_length {E : Setup σ (Runtime Act)} {T remote post e s after seen world}
    (del : Delivered E T remote post e s after seen world) (h : s.head.announced ≤ E.maxAlloc) :
    seen.ContentLength ≤ E.maxAlloc := by
  rw [del.carries.contentLength]
  have h4 : ((decimal s.head.lengthDigits : Int) % ((2 ^ 64 : Nat) : Int)) = s.head.announced := by
    rw [← Int.natCast_emod]; rfl
  unfold Int.bmod
  rw [h4]
  dsimp only
  split <;> omega

private theorem plain404 {defs : List (Bytes × Bytes)} (p : Proto) (framing : ∀ d ∈ defs, framingFields [d] = []) :
    Readable defs p (Fields.new.code 404) where
  clean := ⟨by simp [Fields.new, Fields.code], noBreak_html, noBreak_nil, by simp [Fields.new, Fields.code]⟩
  attachment _ h := by cases h
  framing := ⟨by simp [Fields.new, Fields.code], framing, rfl⟩
  final := by decide
  noBody _ := ⟨rfl, rfl⟩

private theorem plain405 {defs : List (Bytes × Bytes)} (p : Proto) (framing : ∀ d ∈ defs, framingFields [d] = []) (ms : List Method) :
    Readable defs p { Fields.new.code 405 with Headers := [⟨b!"Allow", commas (ms.map Method.toBytes)⟩] } where
  clean := by
    refine ⟨?_, noBreak_html, noBreak_nil, by simp [Fields.new, Fields.code]⟩
    intro h hh
    simp only [List.mem_singleton] at hh
    subst hh
    refine ⟨(by unfold NameOK NoBreak; decide : NameOK b!"Allow"), commas_noBreak ?_⟩
    intro x hx
    obtain ⟨m, -, rfl⟩ := List.mem_map.1 hx
    unfold NoBreak
    cases m <;> decide
  attachment _ h := by cases h
  framing := by
    refine ⟨?_, framing, rfl⟩
    intro h hh
    simp only [List.mem_singleton] at hh
    subst hh
    rfl
  final := by show 200 ≤ 405; decide
  noBody _ := ⟨rfl, rfl⟩

/-- **C83.** The program of the user registers pages - methods, paths without variables, functions from requests and
bodies to responses which say how long they are, with bodies or attachments - with the built-in router, and nothing else. A client sends requests one after another on a
connection, in any segmentation, without waiting; they are well-formed and within the limits, none has the method TRACE, and each
except perhaps the last one leaves the connection open. Then what comes back is one response for each request, in
order, and nothing else; the i-th one has the code, the body (unless the method is HEAD) and the headers which the page registered
for the method and path of the i-th request gives for what this request says and for the body sent with it; or 405 with the methods of the
path, or 404 (`siteAnswer`). -/
theorem C83_site (E : Setup σ (Runtime Act)) (dec : DecodesChunked E.P) (router : E.router = Router.impl E.F .panic) (cfg : Config)
    (size : cfg.bodyMaxSize < 2 ^ 64) (defaults : DefaultsOK E.F (cfg.defaultHeaders.getD []))
    (framing : ∀ d ∈ cfg.defaultHeaders.getD [], framingFields [d] = []) (enc : EncToken) (remote : Bytes)
    (pages : List Page) (static : ∀ p ∈ pages, (123 : Byte) ∉ p.path)
    (readable : ∀ p ∈ pages, ∀ r b, Readable (cfg.defaultHeaders.getD []) r.Proto (p.answer r b))
    (made : make E.F text env (site pages) = some rt)
    (buffer : cfg.responseBuffSize < 16 ^ 8) (cl : Client) (quiet : Quiet cl) (writes : NoWriteError cl) (post : List (Bytes × Option GoErr)) (silent : Silent post)
    (ss : List Sending) (ok : ∀ s ∈ ss, SendableWith E.F cfg s ∧ Modest E.maxAlloc s) (stream : cl.stream = ss.flatMap Sending.bytes)
    (upgrade : ∀ s ∈ ss, s.head.last b!"upgrade" = none) (keep : ∀ s ∈ ss.dropLast, KeepsOpen s.head) :
    ∃ frames msgs,
      (serve E (newConn E.P cfg enc remote rt (followedBy cl post))).1.client.written = cl.written ++ frames ∧
      readReplies (ss.map (fun s => s.head.method)) frames.flatten = some msgs ∧ msgs.length = ss.length ∧
      ∀ i : Nat, ∀ (s : Sending) (m : Msg), ss[i]? = some s → msgs[i]? = some m →
        ∃ e after seen world, Delivered E cfg.maxEncodingTokens.toNat remote post e s after seen world ∧
          (m.code, m.rest) = ((siteAnswer pages seen s.body).1, if s.head.method = .HEAD then [] else (siteAnswer pages seen s.body).2.2) ∧
          (siteAnswer pages seen s.body).2.1.map (fun h => (h.Key, stripOWS h.Value)) <+: m.fields := by
  have hs : Static (site pages) := by
    intro d hd
    rw [site_declared, List.mem_map] at hd
    obtain ⟨p, hp, rfl⟩ := hd
    intro hx
    obtain ⟨n, hn⟩ := (C43_only_slashes_removed p.path).2
    exact static p hp (by rw [hn]; exact List.mem_append_left _ hx)
  have tame : Tame E rt := by
    intro history req w f req' hq hr
    obtain ⟨b, hb⟩ := site_after router made history
    rw [hb, router] at hr
    simp only [Router.impl] at hr
    have passed : ∀ r', Passed (arriving (site pages) req) r' →
        (r'.Query.parsed = false → r'.Query.params.pairs = []) ∧ r'.Remote = req.Remote ∧ r'.Proto = req.Proto := by
      intro r' h
      rw [site_arriving] at h
      rw [h]
      exact ⟨hq, rfl, rfl⟩
    rcases request_known made (C41_always_one E.F text (site pages)) b req with ⟨h, r, hk, hp, h1⟩ | ⟨-, f', r, b', hp, h1⟩ | ⟨-, ⟨d, hd, hdyn⟩, -⟩
    · rw [h1, Option.getD_some] at hr
      rcases hk with ⟨k, hk⟩ | ⟨p, hk⟩ | ⟨c, hk⟩
      · rw [site_declared, List.mem_map] at hk
        obtain ⟨p, -, hk⟩ := hk
        cases hk
        rcases (handler_run E.P E.maxAlloc p r w).1 with h2 | ⟨f2, h2⟩
        · rw [h2] at hr; cases hr
        · rw [h2] at hr; cases hr; exact passed _ hp
      · rw [site_catchers] at hk; cases hk
      · rw [site_errors] at hk
        have : ((h r).run E.P E.maxAlloc w).1 = some (f, req') → req' = r := by
          simp only [Spec.Router.defaults, List.mem_cons, Prod.mk.injEq, List.not_mem_nil, or_false] at hk
          rcases hk with ⟨-, rfl⟩ | ⟨-, rfl⟩
          · intro h; cases h; rfl
          · intro h; cases h; rfl
        rw [this hr]
        exact passed _ hp
    · rw [h1] at hr
      cases hr
      exact passed _ hp
    · rw [(Router.parse_static _ (hs d hd)).2] at hdyn
      cases hdyn
  have does : ∀ (history : List Request) remote post e (s : Sending) after seen world, Modest E.maxAlloc s →
      Delivered E cfg.maxEncodingTokens.toNat remote post e s after seen world →
      ∃ f r' left, Answers E (routerAfter E rt history) seen world (some (f, r'), left) ∧ left.hijacked = false ∧
        Readable (cfg.defaultHeaders.getD []) seen.Proto f ∧ Passed (arriving (site pages) seen) r' ∧
        siteAnswer pages seen s.body = (f.Code, f.Headers, sentBody f) := by
    intro history remote post e s after seen world hmod del
    have h := site_does router made hs history seen (by rw [del.carries.method]; exact hmod.1)
    unfold siteAnswer
    cases hp : pageFor pages seen.Method seen.Path with
    | some p =>
      rw [hp] at h
      obtain ⟨left, hl, hj⟩ := handler_body E p (asRouted pages seen) del (modest_length del hmod.2)
      refine ⟨_, asRouted pages seen, left, ?_, hj, readable p h.1 (asRouted pages seen) _, ?_, rfl⟩
      · unfold Answers; rw [h.2]; exact hl
      · rw [site_arriving]; rfl
    | none =>
      rw [hp] at h
      obtain ⟨f, r', h1, h2, h3⟩ := h
      refine ⟨f, r', _, by unfold Answers; rw [h1]; rfl, rfl, ?_, h2, ?_⟩
      · rcases h3 with ⟨rfl, -⟩ | ⟨rfl, -⟩
        · exact plain404 _ framing
        · exact plain405 _ framing _
      · rcases h3 with ⟨rfl, h⟩ | ⟨rfl, h⟩
        · simp only; rw [if_pos h]; rfl
        · simp only; rw [if_neg h]; rfl
  have answering : Answering E (fun s => SendableWith E.F cfg s ∧ Modest E.maxAlloc s) cfg.maxEncodingTokens.toNat
      (cfg.defaultHeaders.getD []) rt := by
    refine ⟨?_, ?_⟩
    · intro history remote post e s after seen world hok del
      obtain ⟨f, r', left, h1, h2, h3, h4, -⟩ := does history remote post e s after seen world hok.2 del
      rw [site_arriving] at h4
      refine ⟨f, r', left, h1, h2, h3, ?_, ?_, ?_⟩ <;> rw [h4]
    · intro history req e world hw
      obtain ⟨b, hb⟩ := site_after router made history
      rw [hb, router]
      simp only [Router.impl, Runtime.onError]
      rcases error_known (built E.F text env (site pages) rt made) (C41_always_one E.F text (site pages)) b
        (Runtime.runMutators { rt with traceBuff := b } req) e with ⟨h, r, hk, -, h1⟩ | ⟨-, -, f, b', h1⟩ | ⟨-, h1⟩
      · rw [h1]
        rcases hk with ⟨k, hk⟩ | ⟨p, hk⟩ | ⟨c, hk⟩
        · rw [site_declared, List.mem_map] at hk
          obtain ⟨p, -, hk⟩ := hk
          cases hk
          rw [(handler_run E.P E.maxAlloc p r world).2]; exact hw
        · rw [site_catchers] at hk; cases hk
        · rw [site_errors] at hk
          simp only [Spec.Router.defaults, List.mem_cons, Prod.mk.injEq, List.not_mem_nil, or_false] at hk
          rcases hk with ⟨-, rfl⟩ | ⟨-, rfl⟩ <;> exact hw
      · rw [h1]; exact hw
      · rw [h1]; exact hw
  obtain ⟨frames, msgs, h1, h2, h3, h4⟩ := C71_replies_readable_for E dec cfg size defaults enc remote rt tame _ answering buffer cl quiet writes
    post silent ss ok stream upgrade keep
  refine ⟨frames, msgs, h1, h2, h3, ?_⟩
  intro i s m hi hm
  obtain ⟨history, e, after, seen, world, f, req, left, -, del, ans, -, hcode, hbody, hfields⟩ := h4 i s m hi hm
  obtain ⟨f', r', left', a1, -, -, -, a5⟩ := does history remote post e s after seen world (ok s (List.mem_of_getElem? hi)).2 del
  unfold Answers at ans a1
  rw [a1] at ans
  cases ans
  refine ⟨e, after, seen, world, del, ?_, ?_⟩
  · rw [a5, hcode, hbody]
  · rw [a5]
    obtain ⟨_, -, h⟩ := hfields
    rw [h]
    simp only [List.map_append, List.append_assoc, List.map_map]
    exact List.prefix_append _ _

/-! ### The hypotheses are met -/

/-- Two pages; the first one sends the body back. -/
def shop : List Page :=
  [⟨.POST, b!"/a", fun r b => Fields.new.bytes (r.Path ++ b!": " ++ b)⟩, ⟨.GET, b!"/b c", fun _ _ => Fields.new.bytes b!"hi"⟩]

/-- Their router. -/
def shopRouter : Runtime Act :=
  (make Fold.ascii (fun _ => []) sampleEnv (site shop)).get (by decide +kernel)

/-- Their server. -/
def shopSetup : Setup CS (Runtime Act) :=
  { F := Fold.ascii, P := refParser, maxAlloc := 2 ^ 32, router := Router.impl Fold.ascii .panic }

/-- C83: the hypotheses are met by these pages and three requests, cut into segments somehow: one for a page, one with the
method of none, one for a path without pages; and this is what the client reads. -/
example : ∃ cl : Client, Quiet cl ∧ NoWriteError cl ∧ cl.stream = [posted, chunked, gotten].flatMap Sending.bytes ∧
    (∀ s ∈ [posted, chunked, gotten], SendableWith shopSetup.F Config.default s ∧ Modest shopSetup.maxAlloc s) ∧
    make shopSetup.F (fun _ => []) sampleEnv (site shop) = some shopRouter ∧
    (∀ p ∈ shop, (123 : Byte) ∉ p.path) ∧ (∀ p ∈ shop, ∀ r b, Readable (Config.default.defaultHeaders.getD []) r.Proto (p.answer r b)) ∧
    (∀ d ∈ Config.default.defaultHeaders.getD [], framingFields [d] = []) ∧
    (readReplies [.POST, .POST, .GET]
      (serve shopSetup (newConn shopSetup.P Config.default 1 b!"1.2.3.4" shopRouter (followedBy cl []))).1.client.written.flatten).map
      (List.map (fun m => (m.code, m.rest, (m.fields.lookup b!"Allow").getD []))) =
      some [(200, b!"/a: hello", []), (405, [], b!"GET"),
        (404, [], [])] := by
  refine ⟨arrive [posted.bytes.take 41, posted.bytes.drop 41 ++ chunked.bytes.take 55, chunked.bytes.drop 55 ++ gotten.bytes],
    ?_, by simp [NoWriteError, arrive], by decide +kernel, ?_, by simp [shopRouter, shopSetup], by decide +kernel, ?_, by decide +kernel, by decide +kernel⟩
  · unfold Quiet; decide +kernel
  · intro s hs
    simp only [List.mem_cons, List.not_mem_nil, or_false] at hs
    rcases hs with rfl | rfl | rfl
    · exact ⟨posted_ok, by unfold Modest; decide +kernel⟩
    · exact ⟨chunked_ok, by unfold Modest; decide +kernel⟩
    · exact ⟨gotten_ok, by unfold Modest; decide +kernel⟩
  · intro p hp r b
    simp only [shop, List.mem_cons, List.not_mem_nil, or_false] at hp
    rcases hp with rfl | rfl <;> exact report_plain _ _

/-- Two pages with attachments: one of unknown size, which arrives in two parts, and a file of five bytes. -/
def library : List Page :=
  [⟨.POST, b!"/b c", fun r b => if r.Proto = Proto.HTTP10 then Fields.new else Fields.new.attachment (some [(r.Path ++ b!": ", none), (b, some .eof)]) 0⟩,
   ⟨.GET, b!"/", fun _ _ => Fields.new.attachment (some [(b!"hel", none), (b!"lo", none)]) 5⟩]

/-- Their router. -/
def libraryRouter : Runtime Act :=
  (make Fold.ascii (fun _ => []) sampleEnv (site library)).get (by decide +kernel)

/-- C83: the hypotheses are met by pages with attachments (and a small buffer), and this is what the client reads. -/
example : ∃ cl : Client, Quiet cl ∧ NoWriteError cl ∧ cl.stream = [posted, chunked, gotten].flatMap Sending.bytes ∧
    make shopSetup.F (fun _ => []) sampleEnv (site library) = some libraryRouter ∧
    (∀ p ∈ library, (123 : Byte) ∉ p.path) ∧ (∀ p ∈ library, ∀ r b, Readable (Config.default.defaultHeaders.getD []) r.Proto (p.answer r b)) ∧
    (readReplies [.POST, .POST, .GET]
      (serve shopSetup (newConn shopSetup.P { Config.default with responseBuffSize := 16 } 1 b!"1.2.3.4" libraryRouter (followedBy cl []))).1.client.written.flatten).map
      (List.map (fun m => (m.version, m.code, m.rest, (m.fields.lookup b!"Transfer-Encoding").getD []))) =
      some [(b!"HTTP/1.1", 404, [], []), (b!"HTTP/1.1", 200, b!"/b c: hello", b!"chunked"), (b!"HTTP/1.0", 200, b!"hello", [])] := by
  refine ⟨arrive [posted.bytes.take 41, posted.bytes.drop 41 ++ chunked.bytes.take 55, chunked.bytes.drop 55 ++ gotten.bytes],
    ?_, by simp [NoWriteError, arrive], by decide +kernel, by simp [libraryRouter, shopSetup], by decide +kernel, ?_, by decide +kernel⟩
  · unfold Quiet; decide +kernel
  · have clean : ∀ r n, ResponseClean (Fields.new.attachment r n) := fun r n =>
      ⟨by simp [Fields.new, Fields.attachment], noBreak_html, noBreak_nil, by simp [Fields.new, Fields.attachment]⟩
    have key : ∀ p r (n : Int), (readerEnd r = .eof ∧
        ((0 < n ∧ n = (readerData r).length ∧ EndsAlone r) ∨ (n ≤ 0 ∧ p ≠ Proto.HTTP10))) →
        Readable (Config.default.defaultHeaders.getD []) p (Fields.new.attachment (some r) n) := by
      intro p r n h
      exact {
        clean := clean _ _
        attachment := by intro r' h'; cases h'; exact h
        framing := ⟨by simp [Fields.new, Fields.attachment], by decide +kernel, rfl⟩
        final := by show 200 ≤ 200; decide
        noBody := fun h => absurd h (by show ¬ (200 = 204 ∨ 200 = 304); decide) }
    intro p hp r b
    simp only [library, List.mem_cons, List.not_mem_nil, or_false] at hp
    rcases hp with rfl | rfl
    · simp only
      split
      · exact report_plain _ []
      · next h => exact key _ _ _ ⟨rfl, .inr ⟨by decide, h⟩⟩
    · exact key _ _ _ ⟨rfl, .inl ⟨by decide, by decide, by simp [EndsAlone]⟩⟩

end Indigo.Props
