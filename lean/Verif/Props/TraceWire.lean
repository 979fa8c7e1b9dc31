/-
C42 and C87: TRACE requests among others, end to end.
-/
import Verif.Props.Program

namespace Indigo.Props
open Indigo.Serve Indigo.Spec Indigo.Router Indigo.Spec.Router

section
variable {σ : Type} {text : GoErr → Bytes} {env : Env Act} {ops : List (Op Act)} {rt : Runtime Act}

theorem traceResponse_eq (F : Fold) (b : Bytes) : traceResponse F Fields.new b = { Fields.new with ContentType := b!"message/http", Body := b } := by
  have h1 : F.eq b!"Content-Type" b!"content-type" = true := (F.eq_iff_lower (by decide) (by decide)).2 (by decide)
  simp [traceResponse, Fields.header, h1, Fields.contentType, Fields.bytes]

theorem trace_readable {defs : List (Bytes × Bytes)} (hd : ∀ d ∈ defs, framingFields [d] = []) (p : Proto) (b : Bytes) :
    Readable defs p { Fields.new with ContentType := b!"message/http", Body := b } where
  clean := ⟨by simp [Fields.new], by show NoBreak b!"message/http"; unfold NoBreak; decide, noBreak_nil, by simp [Fields.new]⟩
  attachment _ h := by cases h
  framing := ⟨by simp [Fields.new], hd, rfl⟩
  final := by show 200 ≤ 200; decide
  noBody h := absurd h (by show ¬ (200 = 204 ∨ 200 = 304); decide)

/-- What a program does for a request it echoes, after having echoed `b`. -/
theorem program_echoes {F : Fold} (made : make F text env ops = some rt) {L : Lookup}
    (lookup : (L = .static ops ∧ Static ops) ∨ ∃ ts, L = .templates ts ∧ Templates ops ts) {seen : Request} (b : Bytes)
    (he : Echoed ops L (arriving ops seen)) :
    ∃ r', Passed (arriving ops seen) r' ∧ Runtime.onRequest F { rt with traceBuff := b } seen =
      some (pure (traceResponse F Fields.new (b ++ echo (arriving ops seen)), r'), { rt with traceBuff := b ++ echo (arriving ops seen) }) := by
  rcases lookup with ⟨rfl, hs⟩ | ⟨ts, rfl, ht⟩
  · rw [request_static made hs, if_pos ((echoed_static ops seen).1 he)]
    exact ⟨allowing (arriving ops seen) (methodsOf ops (arriving ops seen).Path), rfl, rfl⟩
  · exact (request_vars made ht seen b).1 ((echoed_templates ht seen).1 he)

/-- All the router remembers of the requests it was called with is what it has echoed. -/
theorem trace_after {E : Setup σ (Runtime Act)} (router : E.router = Router.impl E.F .panic) (made : make E.F text env ops = some rt) {L : Lookup}
    (lookup : (L = .static ops ∧ Static ops) ∨ ∃ ts, L = .templates ts ∧ Templates ops ts) (history : List Request) :
    routerAfter E rt history = { rt with traceBuff := echoedText ops L history } := by
  have key : ∀ (history : List Request) (b : Bytes), routerAfter E { rt with traceBuff := b } history = { rt with traceBuff := b ++ echoedText ops L history } := by
    intro history
    induction history with
    | nil => intro b; simp [routerAfter, echoedText]
    | cons r history ih =>
      intro b
      rw [routerAfter_cons, router]
      simp only [Router.impl]
      by_cases he : Echoed ops L (arriving ops r)
      · obtain ⟨r', -, h⟩ := program_echoes made lookup b he
        rw [h, Option.getD_some, ih, echoedText, echoedText, List.filter_cons_of_pos (by simpa using he), List.flatMap_cons, List.append_assoc]
      · have : Runtime.onRequest E.F { rt with traceBuff := b } r = (rt.onRequest E.F r).map (fun x => (x.1, { rt with traceBuff := b })) := by
          rcases lookup with ⟨rfl, hs⟩ | ⟨ts, rfl, ht⟩
          · rw [request_static made hs, if_neg (fun h => he ((echoed_static ops r).2 h))]
          · exact (request_vars made ht r b).2 (fun h => he ((echoed_templates ht r).2 h))
        have hnil : echoedText ops L (r :: history) = echoedText ops L history := by
          rw [echoedText, echoedText, List.filter_cons_of_neg (by simpa using he)]
        rw [this, hnil, ← ih b]
        cases rt.onRequest E.F r <;> rfl
  have hb : rt.traceBuff = [] := (built E.F text env ops rt made).buff
  have e : { rt with traceBuff := [] } = rt := by rw [← hb]
  have := key history []
  rw [e] at this
  simpa using this

/-- **C87**, with TRACE requests among the others: those for a route which has no handler for TRACE are answered by the router itself, with 200 and the text of the request, after the texts of
all earlier ones which were answered so (see C42); all other requests are answered by the `Chosen` handlers. -/
theorem C87_trace (E : Setup σ (Runtime Act)) (dec : DecodesChunked E.P) (router : E.router = Router.impl E.F .panic) (cfg : Config)
    (size : cfg.bodyMaxSize < 2 ^ 64) (defaults : DefaultsOK E.F (cfg.defaultHeaders.getD []))
    (framing : ∀ d ∈ cfg.defaultHeaders.getD [], framingFields [d] = []) (enc : EncToken) (remote : Bytes)
    (ops : List (Op Act)) (made : make E.F text env ops = some rt) (L : Lookup) (good : Sending → Prop)
    (lookup : (L = .static ops ∧ Static ops) ∨
      ∃ ts, L = .templates ts ∧ Templates ops ts ∧ (∀ s, good s → ∃ p, s.path = SLASH :: p) ∧
        ∀ r p, r.Path = SLASH :: p → ∃ p', (mutated ops r).Path = SLASH :: p')
    (mutators : ∀ r, Untouched r (mutated ops r)) (polite : AllHandlers E.F text ops (Polite E))
    (answers : ∀ remote post e s after seen world h r, SendableWith E.F cfg s → good s →
      Delivered E cfg.maxEncodingTokens.toNat remote post e s after seen world → ¬ Echoed ops L (arriving ops seen) →
      Chosen E.F text ops L (arriving ops seen) h r →
      ∃ f r' left, (h r).run E.P E.maxAlloc ⟨world.1, world.2, false⟩ = (some (f, r'), left) ∧
        Readable (cfg.defaultHeaders.getD []) seen.Proto f)
    (buffer : cfg.responseBuffSize < 16 ^ 8) (cl : Client) (quiet : Quiet cl) (writes : NoWriteError cl) (post : List (Bytes × Option GoErr)) (silent : Silent post)
    (ss : List Sending) (ok : ∀ s ∈ ss, SendableWith E.F cfg s ∧ good s) (stream : cl.stream = ss.flatMap Sending.bytes)
    (upgrade : ∀ s ∈ ss, s.head.last b!"upgrade" = none) (keep : ∀ s ∈ ss.dropLast, KeepsOpen s.head) :
    ∃ frames msgs,
      (serve E (newConn E.P cfg enc remote rt (followedBy cl post))).1.client.written = cl.written ++ frames ∧
      readReplies (ss.map (fun s => s.head.method)) frames.flatten = some msgs ∧ msgs.length = ss.length ∧
      ∀ i : Nat, ∀ (s : Sending) (m : Msg), ss[i]? = some s → msgs[i]? = some m →
        ∃ history e after seen world, HeardBefore E cfg.maxEncodingTokens.toNat remote post (ss.take i) history ∧
          Delivered E cfg.maxEncodingTokens.toNat remote post e s after seen world ∧ versionName seen.Proto = some m.version ∧
          (Echoed ops L (arriving ops seen) → m.code = 200 ∧ (b!"Content-Type", b!"message/http") ∈ m.fields ∧
            m.rest = echoedText ops L history ++ echo (arriving ops seen)) ∧
          (¬ Echoed ops L (arriving ops seen) → ∃ h r f r' left, Chosen E.F text ops L (arriving ops seen) h r ∧
            (h r).run E.P E.maxAlloc ⟨world.1, world.2, false⟩ = (some (f, r'), left) ∧
            m.code = f.Code ∧ m.rest = (if s.head.method = .HEAD then [] else sentBody f) ∧
            SaysFields (cfg.defaultHeaders.getD []) f m.fields) := by
  have arrives : ∀ r, Untouched r (arriving ops r) := fun r => (mutators r).normalised _
  have tame : Tame E rt := program_tame router made mutators polite
  have lookup' : (L = .static ops ∧ Static ops) ∨ ∃ ts, L = .templates ts ∧ Templates ops ts := by
    rcases lookup with h | ⟨ts, h, ht, -⟩
    · exact .inl h
    · exact .inr ⟨ts, h, ht⟩
  have echoes : ∀ (history : List Request) seen, Echoed ops L (arriving ops seen) → ∃ r', Passed (arriving ops seen) r' ∧
      (E.router.onRequest (routerAfter E rt history) seen).1 =
        pure ({ Fields.new with ContentType := b!"message/http", Body := echoedText ops L history ++ echo (arriving ops seen) }, r') := by
    intro history seen he
    rw [trace_after router made lookup' history, router]
    obtain ⟨r', hp, h⟩ := program_echoes made lookup'
      (echoedText ops L history) he
    refine ⟨r', hp, ?_⟩
    simp only [Router.impl]
    rw [h, Option.getD_some, traceResponse_eq]
  have does : ∀ (history : List Request) remote post e (s : Sending) after seen world, good s →
      Delivered E cfg.maxEncodingTokens.toNat remote post e s after seen world → ¬ Echoed ops L (arriving ops seen) →
      ∃ h r, Chosen E.F text ops L (arriving ops seen) h r ∧ (E.router.onRequest (routerAfter E rt history) seen).1 = h r := by
    intro history remote post e s after seen world hgood del hne
    obtain ⟨b, hb⟩ := after_buff router made history
    obtain ⟨h, r, hc, hr⟩ := program_does (seen := seen) made L (by
      rcases lookup with ⟨rfl, hs⟩ | ⟨ts, rfl, ht, hroot, hmut⟩
      · exact .inl ⟨rfl, hs⟩
      · obtain ⟨p, hp⟩ := hroot s hgood
        exact .inr ⟨ts, rfl, ht, hmut seen p (by rw [del.path]; exact hp)⟩) b hne
    refine ⟨h, r, hc, ?_⟩
    rw [hb, router]
    simp only [Router.impl, hr]
    rfl
  have answering : Answering E (fun s => SendableWith E.F cfg s ∧ good s) cfg.maxEncodingTokens.toNat
      (cfg.defaultHeaders.getD []) rt := by
    refine ⟨?_, ?_⟩
    · intro history remote post e s after seen world hok del
      by_cases he : Echoed ops L (arriving ops seen)
      · obtain ⟨r', hp, h⟩ := echoes history seen he
        have hu := (arrives seen).passed hp
        refine ⟨_, r', ⟨world.1, world.2, false⟩, by unfold Answers; rw [h]; rfl, rfl, trace_readable framing _ _, hu.method, hu.connection, hu.upgrade⟩
      · obtain ⟨h, r, hc, hr⟩ := does history remote post e s after seen world hok.2 del he
        obtain ⟨f, r', left, h1, h2⟩ := answers remote post e s after seen world h r hok.1 hok.2 del he hc
        have hg := program_good polite (chosen_known hc)
        have hu := ((arrives seen).trans (chosen_untouched hc)).trans (hg.request r ⟨world.1, world.2, false⟩ f r' (by rw [h1]))
        refine ⟨f, r', left, by unfold Answers; rw [hr]; exact h1, ?_, h2, hu.method, hu.connection, hu.upgrade⟩
        have := hg.hijacked r ⟨world.1, world.2, false⟩
        rw [h1] at this
        exact this
    · intro history req e world hw
      obtain ⟨b, hb⟩ := after_buff router made history
      rw [hb, router]
      simp only [Router.impl, Runtime.onError]
      rcases error_known (built E.F text env ops rt made) (C41_always_one E.F text ops) b
        (Runtime.runMutators { rt with traceBuff := b } req) e with ⟨h, r, hk, -, h1⟩ | ⟨-, -, f, b', h1⟩ | ⟨-, h1⟩
      · rw [h1, (program_good polite hk).hijacked r world]; exact hw
      · rw [h1]; exact hw
      · rw [h1]; exact hw
  obtain ⟨frames, msgs, h1, h2, h3, h4⟩ := C71_replies_readable_for E dec cfg size defaults enc remote rt tame _ answering buffer cl quiet writes
    post silent ss ok stream upgrade keep
  refine ⟨frames, msgs, h1, h2, h3, ?_⟩
  intro i s m hi hm
  obtain ⟨history, e, after, seen, world, f, req, left, heard, del, ans, hver, hcode, hbody, hfields⟩ := h4 i s m hi hm
  refine ⟨history, e, after, seen, world, heard, del, hver, ?_, ?_⟩
  · intro he
    obtain ⟨r', -, h⟩ := echoes history seen he
    unfold Answers at ans
    rw [h] at ans
    cases ans
    have hmeth : s.head.method = .TRACE := by
      rw [← del.carries.method, ← (arrives seen).method]; exact he.1
    refine ⟨hcode, ?_, ?_⟩
    · obtain ⟨ds, -, hf⟩ := hfields
      rw [hf]
      have : stripOWS b!"message/http" = b!"message/http" := by decide
      simp [this]
    · rw [hbody, if_neg (by rw [hmeth]; decide)]
      rfl
  · intro he
    have hok := (ok s (List.mem_of_getElem? hi)).2
    obtain ⟨h, r, hc, hr⟩ := does history remote post e s after seen world hok del he
    unfold Answers at ans
    rw [hr] at ans
    exact ⟨h, r, f, req, left, hc, ans, hcode, hbody, hfields⟩

theorem spoken_eq {h : Head} {p : Proto} (hv : IsVersion h.version p) : trimSpace p.toBytes = spoken h := by
  obtain ⟨sep, ⟨h, rfl⟩ | ⟨h, rfl⟩ | ⟨h, rfl⟩⟩ := hv
  · rw [spoken, h]; clear h; revert sep; exact byte_forall (by decide +kernel)
  · rw [spoken, h]; clear h; revert sep; exact byte_forall (by decide +kernel)
  · rw [spoken, h]; clear h; revert sep; exact byte_forall (by decide +kernel)

/-- What is echoed of a request is what was sent. -/
theorem echo_sent {E : Setup σ (Runtime Act)} {T : Nat} {remote post e s after seen world}
    (del : Delivered E T remote post e s after seen world) (plain : ∀ r, mutated ops r = r) : echo (arriving ops seen) = echoOf s := by
  have h : arriving ops seen = { seen with Path := UriNormalize.normalize s.path } := by
    rw [arriving, plain, del.path]
  rw [h, echo, echoOf]
  simp only [del.carries.method, del.carries.query.1, spoken_eq del.carries.proto, del.carries.headers, List.flatMap_map]
  cases hq : s.head.query with
  | none => simp
  | some q => cases q <;> simp

/-- Whether a request is echoed depends on what was sent. -/
theorem echoed_sent {E : Setup σ (Runtime Act)} {T : Nat} {remote post e s after seen world} {L : Lookup}
    (lookup : L = .static ops ∨ ∃ ts, L = .templates ts)
    (del : Delivered E T remote post e s after seen world) (plain : ∀ r, mutated ops r = r) :
    Echoed ops L (arriving ops seen) ↔ Traceable ops L s := by
  have h : arriving ops seen = { seen with Path := UriNormalize.normalize s.path } := by
    rw [arriving, plain, del.path]
  rw [h]
  constructor
  · intro he
    exact ⟨{ seen with Path := UriNormalize.normalize s.path }, del.carries.method, rfl, he⟩
  · rintro ⟨r, hm, hp, h1, route, values, h2, h3⟩
    refine ⟨by show seen.Method = _; rw [del.carries.method, ← hm]; exact h1, route, values, ?_, h3⟩
    rcases lookup with rfl | ⟨ts, rfl⟩
    · simpa [Lookup.static, hp] using h2
    · simpa [Lookup.templates, hp] using h2

open Classical in
/-- What was echoed of the requests before is what was sent. -/
theorem echoedText_sent {E : Setup σ (Runtime Act)} {T : Nat} {remote post} {L : Lookup}
    (lookup : L = .static ops ∨ ∃ ts, L = .templates ts) (plain : ∀ r, mutated ops r = r) :
    ∀ (ss : List Sending) (history : List Request), HeardBefore E T remote post ss history →
      echoedText ops L history = (ss.filter (fun s => decide (Traceable ops L s))).flatMap echoOf := by
  intro ss
  induction ss with
  | nil =>
    intro history h
    have : history = [] := List.eq_nil_of_length_eq_zero (by rw [h.1]; rfl)
    rw [this]
    rfl
  | cons s ss ih =>
    intro history h
    cases history with
    | nil => have := h.1; simp at this
    | cons r history =>
      obtain ⟨e, after, world, del⟩ := h.2 0 s r rfl rfl
      have ih := ih history ⟨by have := h.1; simpa using this, fun j s r hs hr => h.2 (j + 1) s r (by simpa using hs) (by simpa using hr)⟩
      rw [echoedText] at ih ⊢
      by_cases ht : Traceable ops L s
      · rw [List.filter_cons_of_pos (by simpa using (echoed_sent lookup del plain).2 ht), List.filter_cons_of_pos (by simpa using ht),
          List.flatMap_cons, List.flatMap_cons, ih, echo_sent del plain]
      · rw [List.filter_cons_of_neg (by simpa using fun h => ht ((echoed_sent lookup del plain).1 h)), List.filter_cons_of_neg (by simpa using ht), ih]

open Classical in
/-- **C42**, on the wire. A client sends requests one after another on the first connection to a server, in any segmentation, without waiting; among them TRACE requests for routes which have no handler for
TRACE. Each of these is answered with 200, the type message/http, and the text of the request, which comes after the texts of all earlier ones of these. -/
theorem C42_wire (E : Setup σ (Runtime Act)) (dec : DecodesChunked E.P) (router : E.router = Router.impl E.F .panic) (cfg : Config)
    (size : cfg.bodyMaxSize < 2 ^ 64) (defaults : DefaultsOK E.F (cfg.defaultHeaders.getD []))
    (framing : ∀ d ∈ cfg.defaultHeaders.getD [], framingFields [d] = []) (enc : EncToken) (remote : Bytes)
    (ops : List (Op Act)) (made : make E.F text env ops = some rt) (L : Lookup) (good : Sending → Prop)
    (lookup : (L = .static ops ∧ Static ops) ∨ ∃ ts, L = .templates ts ∧ Templates ops ts ∧ ∀ s, good s → ∃ p, s.path = SLASH :: p)
    (plain : ∀ r, mutated ops r = r) (polite : AllHandlers E.F text ops (Polite E))
    (answers : ∀ remote post e s after seen world h r, SendableWith E.F cfg s → good s → ¬ Traceable ops L s →
      Delivered E cfg.maxEncodingTokens.toNat remote post e s after seen world →
      Chosen E.F text ops L (arriving ops seen) h r →
      ∃ f r' left, (h r).run E.P E.maxAlloc ⟨world.1, world.2, false⟩ = (some (f, r'), left) ∧
        Readable (cfg.defaultHeaders.getD []) seen.Proto f)
    (buffer : cfg.responseBuffSize < 16 ^ 8) (cl : Client) (quiet : Quiet cl) (writes : NoWriteError cl) (post : List (Bytes × Option GoErr)) (silent : Silent post)
    (ss : List Sending) (ok : ∀ s ∈ ss, SendableWith E.F cfg s ∧ good s) (stream : cl.stream = ss.flatMap Sending.bytes)
    (upgrade : ∀ s ∈ ss, s.head.last b!"upgrade" = none) (keep : ∀ s ∈ ss.dropLast, KeepsOpen s.head) :
    ∃ frames msgs,
      (serve E (newConn E.P cfg enc remote rt (followedBy cl post))).1.client.written = cl.written ++ frames ∧
      readReplies (ss.map (fun s => s.head.method)) frames.flatten = some msgs ∧ msgs.length = ss.length ∧
      ∀ i : Nat, ∀ (s : Sending) (m : Msg), ss[i]? = some s → msgs[i]? = some m → Traceable ops L s →
        m.code = 200 ∧ (b!"Content-Type", b!"message/http") ∈ m.fields ∧
        m.rest = ((ss.take i).filter (fun s => decide (Traceable ops L s))).flatMap echoOf ++ echoOf s := by
  have lookup' : L = .static ops ∨ ∃ ts, L = .templates ts := by
    rcases lookup with ⟨h, -⟩ | ⟨ts, h, -⟩
    · exact .inl h
    · exact .inr ⟨ts, h⟩
  obtain ⟨frames, msgs, h1, h2, h3, h4⟩ := C87_trace E dec router cfg size defaults framing enc remote ops made L good
    (by
      rcases lookup with h | ⟨ts, h1, h2, h3⟩
      · exact .inl h
      · exact .inr ⟨ts, h1, h2, h3, fun r p hp => ⟨p, by rw [plain]; exact hp⟩⟩)
    (fun r => by rw [plain]; exact ⟨rfl, rfl, rfl, rfl, rfl, id⟩) polite
    (fun remote post e s after seen world h r h1 h2 del hne hc =>
      answers remote post e s after seen world h r h1 h2 (fun ht => hne ((echoed_sent lookup' del plain).2 ht)) del hc)
    buffer cl quiet writes post silent ss ok stream upgrade keep
  refine ⟨frames, msgs, h1, h2, h3, ?_⟩
  intro i s m hi hm ht
  obtain ⟨history, e, after, seen, world, heard, del, -, hecho, -⟩ := h4 i s m hi hm
  obtain ⟨k1, k2, k3⟩ := hecho ((echoed_sent lookup' del plain).2 ht)
  refine ⟨k1, k2, ?_⟩
  rw [k3, echoedText_sent lookup' plain _ _ heard, echo_sent del plain]

/-! ### The hypotheses are met -/

/-- A program with one route, and handlers for errors which say nothing else. -/
def kiosk : List (Op Act) :=
  [.route 0 .GET b!"/news" (fun r => pure (Fields.new.bytes b!"none", r)) [],
   .routeError 0 (fun r => pure (Fields.new.code 400, r)) [0, 404, 405]]

/-- Its router. -/
def kioskRouter : Runtime Act := (make Fold.ascii (fun _ => []) sampleEnv kiosk).get (by decide +kernel)

/-- `TRACE /news/?q HTTP/1.1` with a secret. -/
def tracing : Sending where
  head := { method := .TRACE, target := b!"/new%73/", query := some b!"q", version := b!"HTTP/1.1", crlf := true,
            fields := [⟨b!"Cookie", 1, b!"secret=1", true⟩, ⟨b!"Content-Length", 1, b!"0", true⟩], lastCrlf := true }
  path := b!"/news/"
  body := []
  coded := []

theorem tracing_ok : SendableWith Fold.ascii Config.default tracing where
  ok := ⟨by decide, by decide, by intro q h; cases h; decide, ⟨⟨_, 46, .inr (.inl ⟨rfl, rfl⟩)⟩, by decide, by decide⟩, by
    intro f hf
    simp only [tracing, List.mem_cons, List.not_mem_nil, or_false] at hf
    rcases hf with rfl | rfl
    · exact ⟨by decide, by decide, by decide, by decide, by decide, by decide⟩
    · exact ⟨by decide, by decide, by decide, by decide, by decide, by decide⟩⟩
  clean := by unfold Head.CleanNames; decide
  noBareEmpty := by unfold Head.NoBareEmpty; decide
  fits := ⟨by decide +kernel, by decide +kernel, by decide +kernel, by decide +kernel, by decide +kernel⟩
  path := .lit (by decide) (.lit (by decide) (.lit (by decide) (.lit (by decide) (.esc (.lit (by decide) .nil)))))
  framed := .sized (by decide +kernel) rfl (by decide)
  body := by decide +kernel

example : echoOf tracing = b!"TRACE /news?q HTTP/1.1\r\nCookie: secret=1\r\nContent-Length: 0\r\n\r\n" := by decide +kernel

private theorem kiosk_declared : declared kiosk = [((b!"/news", .GET), fun r => pure (Fields.new.bytes b!"none", r))] := rfl

/-- C42, C87: the hypotheses are met by this program and three requests, of which the second one is traced. -/
example : ∃ cl : Client, Quiet cl ∧ NoWriteError cl ∧ cl.stream = [posted, tracing, gotten].flatMap Sending.bytes ∧
    (∀ s ∈ [posted, tracing, gotten], SendableWith dinerSetup.F Config.default s ∧ s.head.last b!"upgrade" = none) ∧
    make dinerSetup.F (fun _ => []) sampleEnv kiosk = some kioskRouter ∧ Static kiosk ∧ (∀ r, mutated kiosk r = r) ∧
    AllHandlers dinerSetup.F (fun _ => []) kiosk (Polite dinerSetup) ∧ Traceable kiosk (.static kiosk) tracing ∧
    (readReplies [.POST, .TRACE, .GET]
      (serve dinerSetup (newConn dinerSetup.P Config.default 1 b!"1.2.3.4" kioskRouter (followedBy cl []))).1.client.written.flatten).map
      (List.map (fun m => (m.code, m.rest))) = some [(400, []), (200, echoOf tracing), (400, [])] := by
  refine ⟨arrive [posted.bytes.take 41, posted.bytes.drop 41 ++ tracing.bytes.take 55, tracing.bytes.drop 55 ++ gotten.bytes],
    ?_, by simp [NoWriteError, arrive], by decide +kernel, ?_, by simp [kioskRouter, dinerSetup], ?_, fun r => rfl, ?_, ?_, by decide +kernel⟩
  · unfold Quiet; decide +kernel
  · intro s hs
    simp only [List.mem_cons, List.not_mem_nil, or_false] at hs
    rcases hs with rfl | rfl | rfl
    · exact ⟨posted_ok, by decide⟩
    · exact ⟨tracing_ok, by decide⟩
    · exact ⟨gotten_ok, by decide⟩
  · unfold Static
    rw [kiosk_declared]
    intro d hd
    rw [List.mem_singleton.1 hd]
    decide
  · refine ⟨?_, fun c hc => (by cases hc), ?_⟩
    · rw [kiosk_declared]
      intro d hd
      rw [List.mem_singleton.1 hd]
      exact polite_pure _ _ (fun r => ⟨_, rfl⟩)
    · intro e he
      have : errorHandlers (Spec.Router.defaults dinerSetup.F (fun _ => [])) kiosk = [(0, defaultAllErrorsHandler (fun _ => [])),
        (405, defaultMethodNotAllowedHandler Fold.ascii (fun _ => [])),
        (0, fun r => pure (Fields.new.code 400, r)), (404, fun r => pure (Fields.new.code 400, r)), (405, fun r => pure (Fields.new.code 400, r))] := rfl
      rw [this] at he
      simp only [List.mem_cons, List.not_mem_nil, or_false] at he
      rcases he with rfl | rfl | rfl | rfl | rfl <;> exact polite_pure _ _ (fun r => ⟨_, rfl⟩)
  · refine ⟨{ Method := .TRACE, Path := b!"/news" }, rfl, by decide +kernel, rfl, b!"/news", [], ⟨rfl, rfl, ?_⟩, ?_⟩
    · decide +kernel
    · decide +kernel

/-- On another connection to the same server, the reply to a TRACE request discloses the cookies of that client. -/
theorem C42_wire_violation :
    (readReplies [.TRACE]
      (serve dinerSetup (newConn dinerSetup.P Config.default 1 b!"5.6.7.8"
        (serve dinerSetup (newConn dinerSetup.P Config.default 1 b!"1.2.3.4" kioskRouter (arrive [tracing.bytes]))).1.router
        (arrive [b!"TRACE /news HTTP/1.1\r\n\r\n"]))).1.client.written.flatten).map (List.map Msg.rest) =
    some [b!"TRACE /news?q HTTP/1.1\r\nCookie: secret=1\r\nContent-Length: 0\r\n\r\n" ++
      b!"TRACE /news HTTP/1.1\r\nContent-Length: 0\r\n\r\n"] := by decide +kernel

end
end Indigo.Props
