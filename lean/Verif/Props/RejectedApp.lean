/-
C32, C87, C100: malformed heads end to end, for applications of the built-in router and of two functions.
-/
import Verif.Props.Rejected
import Verif.Props.Program
import Verif.Props.ServeWitness

namespace Indigo.Props
open Indigo.Serve Indigo.Spec Indigo.Router Indigo.Spec.Router
variable {σ : Type} {text : GoErr → Bytes} {env : Env Act} {ops : List (Op Act)} {rt : Runtime Act}

theorem section_error {L : Limits} {a b n : Nat} {s : Bytes} {e : Status.HTTPError} (h : SectionFault L a b n s e) :
    e ≠ Status.ErrNotFound ∧ e ≠ Status.ErrMethodNotAllowed := by
  induction h with
  | next _ _ _ _ _ _ _ _ _ _ ih => exact ih
  | _ => exact ⟨by decide, by decide⟩

/-- No fault of a head has one of the errors by which the router itself refuses requests. -/
theorem fault_error {L : Limits} {s : Bytes} {e : Status.HTTPError} (h : HeadFault L s e) :
    e ≠ Status.ErrNotFound ∧ e ≠ Status.ErrMethodNotAllowed := by
  cases h with
  | noMethod => exact ⟨by decide, by decide⟩
  | unknownMethod => exact ⟨by decide, by decide⟩
  | line _ _ _ _ _ _ _ hl => cases hl <;> exact ⟨by decide, by decide⟩
  | fields _ _ _ _ _ _ hs => exact section_error hs

/-- `C41_chosen`, after any history. -/
theorem error_chosen {E : Setup σ (Runtime Act)} (router : E.router = Router.impl E.F .panic) (made : make E.F text env ops = some rt)
    (history : List Request) (req : Request) (e : Status.HTTPError) (h1 : e ≠ Status.ErrNotFound) (h2 : e ≠ Status.ErrMethodNotAllowed) :
    ∃ h, handlerFor E.F text ops e.Code = some h ∧
      (E.router.onError (routerAfter E rt history) req (.http e)).1 = h (failing (mutated ops req) (.http e)) := by
  obtain ⟨h, hh, hr⟩ := C41_chosen made req e (fun h => absurd h h1) (fun _ => h2)
  refine ⟨h, hh, ?_⟩
  obtain ⟨b, hb⟩ := after_buff router made history
  rw [hb, router]
  simp only [Router.impl]
  have : (Runtime.onError E.F { rt with traceBuff := b } req (.http e)).1 = (Runtime.onError E.F rt req (.http e)).1 := by
    have h3 : ¬ (GoErr.http e = .http Status.ErrNotFound) := fun h => h1 (by simpa using h)
    have h4 : ¬ (GoErr.http e = .http Status.ErrMethodNotAllowed) := fun h => h2 (by simpa using h)
    simp only [Runtime.onError, Runtime.onError', h3, h4, and_false, if_false]
    rw [show Runtime.retrieveErrorHandler { rt with traceBuff := b } e.Code = rt.retrieveErrorHandler e.Code from rfl]
    cases rt.retrieveErrorHandler e.Code <;> rfl
  rw [this, hr]

/-- **C87.** As `C87_program`, but after the requests the client sends a malformed or over-limit head (with anything behind it), in which a method is named and whose fault is not the version: one more response comes back, and nothing after it. It is
the answer of the error handler which the program has registered for the code of this fault, or for all errors, or else of the default one; the handler finds the error in the request. -/
theorem C87_malformed (E : Setup σ (Runtime Act)) (dec : DecodesChunked E.P) (router : E.router = Router.impl E.F .panic) (cfg : Config)
    (size : cfg.bodyMaxSize < 2 ^ 64) (defaults : DefaultsOK E.F (cfg.defaultHeaders.getD [])) (enc : EncToken) (remote : Bytes)
    (ops : List (Op Act)) (made : make E.F text env ops = some rt) (L : Lookup) (good : Sending → Prop)
    (lookup : (L = .static ops ∧ Static ops) ∨
      ∃ ts, L = .templates ts ∧ Templates ops ts ∧ (∀ s, good s → ∃ p, s.path = SLASH :: p) ∧
        ∀ r p, r.Path = SLASH :: p → ∃ p', (mutated ops r).Path = SLASH :: p')
    (mutators : ∀ r, Untouched r (mutated ops r)) (polite : AllHandlers E.F text ops (Polite E))
    (answers : ∀ remote post e s after seen world h r, SendableWith E.F cfg s → good s →
      Delivered E cfg.maxEncodingTokens.toNat remote post e s after seen world → Chosen E.F text ops L (arriving ops seen) h r →
      ∃ f r' left, (h r).run E.P E.maxAlloc ⟨world.1, world.2, false⟩ = (some (f, r'), left) ∧
        Readable (cfg.defaultHeaders.getD []) seen.Proto f)
    (buffer : cfg.responseBuffSize < 16 ^ 8) (cl : Client) (quiet : Quiet cl) (writes : NoWriteError cl) (post : List (Bytes × Option GoErr))
    (ss : List Sending) (ok : ∀ s ∈ ss, SendableWith E.F cfg s ∧ s.head.method ≠ .TRACE ∧ good s) (keep : ∀ s ∈ ss, KeepsOpen s.head)
    (bad : Bytes) (e : Status.HTTPError) (fits : RequestLineFits (headLimits cfg).line bad) (clean : CleanStream bad)
    (fault : HeadFault (headLimits cfg) bad e) (version : e ≠ Status.ErrUnsupportedProtocol) (meth : Method) (named : NamesMethod bad meth)
    (errors : ∀ h r (world : Act.World σ), handlerFor E.F text ops e.Code = some h → world.hijacked = false →
      ∃ f r' left, (h (failing r (.http e))).run E.P E.maxAlloc world = (some (f, r'), left) ∧ Readable (cfg.defaultHeaders.getD []) r.Proto f)
    (stream : cl.stream = ss.flatMap Sending.bytes ++ bad) :
    ∃ frames msgs last,
      (serve E (newConn E.P cfg enc remote rt (followedBy cl post))).1.client.written = cl.written ++ frames ∧
      readReplies (ss.map (fun s => s.head.method) ++ [meth]) frames.flatten = some (msgs ++ [last]) ∧ msgs.length = ss.length ∧
      (∀ i : Nat, ∀ (s : Sending) (m : Msg), ss[i]? = some s → msgs[i]? = some m →
        ∃ e after seen world h r f r' left, Delivered E cfg.maxEncodingTokens.toNat remote post e s after seen world ∧
          Chosen E.F text ops L (arriving ops seen) h r ∧
          (h r).run E.P E.maxAlloc ⟨world.1, world.2, false⟩ = (some (f, r'), left) ∧
          versionName seen.Proto = some m.version ∧ m.code = f.Code ∧ m.rest = (if s.head.method = .HEAD then [] else sentBody f) ∧
          SaysFields (cfg.defaultHeaders.getD []) f m.fields) ∧
      ∃ seen h world f r' left, AtFault E.F (headLimits cfg) cfg.maxEncodingTokens.toNat bad remote e seen ∧ handlerFor E.F text ops e.Code = some h ∧ world.hijacked = false ∧
        (h (failing (mutated ops seen) (.http e))).run E.P E.maxAlloc world = (some (f, r'), left) ∧
        versionName seen.Proto = some last.version ∧ last.code = f.Code ∧ last.rest = (if meth = .HEAD then [] else sentBody f) ∧
        SaysFields (cfg.defaultHeaders.getD []) f last.fields := by
  have tame : Tame E rt := program_tame router made mutators polite
  have does := program_chosen (cfg := cfg) router made lookup mutators
  have answering := program_answering router made lookup mutators polite answers
  obtain ⟨n1, n2⟩ := fault_error fault
  have excusing : Excusing E (cfg.defaultHeaders.getD []) e rt := by
    intro history req world hw
    obtain ⟨h, hh, hr⟩ := error_chosen router made history req e n1 n2
    obtain ⟨f, r', left, g1, g2⟩ := errors h (mutated ops req) world hh hw
    have hg := program_good polite (handlerFor_known hh)
    have hu := hg.request _ world f r' (by rw [g1])
    refine ⟨f, r', left, by rw [hr]; exact g1, ?_, ?_, hu.method.trans (mutators req).method, hu.proto.trans (mutators req).proto⟩
    · have := hg.hijacked (failing (mutated ops req) (.http e)) world
      rw [g1] at this
      exact this.trans hw
    · rw [← (mutators req).proto]; exact g2
  obtain ⟨frames, msgs, last, h1, h2, h3, h4, h5⟩ := C32_reply_readable E dec cfg size defaults enc remote rt tame _ answering buffer cl quiet writes
    post ss ok keep bad e fits clean fault version meth named excusing stream
  refine ⟨frames, msgs, last, h1, h2, h3, ?_, ?_⟩
  · intro i s m hi hm
    obtain ⟨history, e, after, seen, world, f, req, left, -, del, ans, hver, hcode, hbody, hfields⟩ := h4 i s m hi hm
    have hok := (ok s (List.mem_of_getElem? hi)).2
    obtain ⟨h, r, hc, hr⟩ := does history remote post e s after seen world hok.1 hok.2 del
    unfold Answers at ans
    rw [hr] at ans
    exact ⟨e, after, seen, world, h, r, f, req, left, del, hc, ans, hver, hcode, hbody, hfields⟩
  · obtain ⟨history, seen, f, req, left, -, hat, ⟨world, hw, told⟩, rest⟩ := h5
    obtain ⟨h, hh, hr⟩ := error_chosen router made history seen e n1 n2
    rw [hr] at told
    exact ⟨seen, h, world, f, req, left, hat, hh, hw, told, rest⟩

/-! ### C100: applications of two functions -/

section
variable {E : Setup σ (Simple.Router Act)} {handler errHandler : Handler Act}

theorem simple_after (router : E.router = Simple.impl Act) (st : Simple.Router Act) (history : List Request) : routerAfter E st history = st := by
  unfold routerAfter
  rw [router]
  induction history with
  | nil => rfl
  | cons r rs ih => exact ih

theorem simple_tame (router : E.router = Simple.impl Act)
    (polite : ∀ r w f r', ((handler r).run E.P E.maxAlloc w).1 = some (f, r') → Untouched r r') : Tame E ⟨handler, errHandler⟩ := by
  intro history req w f req' hq hr
  rw [simple_after router, router] at hr
  have := polite req w f req' hr
  exact ⟨this.query hq, this.remote, this.proto⟩

theorem simple_answering (router : E.router = Simple.impl Act) {ok : Sending → Prop} {T : Nat} {defs : List (Bytes × Bytes)}
    (polite : ∀ r w f r', ((handler r).run E.P E.maxAlloc w).1 = some (f, r') → Untouched r r')
    (answers : ∀ remote post e s after seen world, ok s → Delivered E T remote post e s after seen world →
      ∃ f r' left, (handler seen).run E.P E.maxAlloc ⟨world.1, world.2, false⟩ = (some (f, r'), left) ∧ left.hijacked = false ∧
        Readable defs seen.Proto f)
    (errors : ∀ r w, ((errHandler r).run E.P E.maxAlloc w).2.hijacked = w.hijacked) : Answering E ok T defs ⟨handler, errHandler⟩ where
  request history remote post e s after seen world hok del := by
    rw [simple_after router]
    obtain ⟨f, r', left, h1, h2, h3⟩ := answers remote post e s after seen world hok del
    have hu := polite seen ⟨world.1, world.2, false⟩ f r' (by rw [h1])
    exact ⟨f, r', left, by unfold Answers; rw [router]; exact h1, h2, h3, hu.method, hu.connection, hu.upgrade⟩
  error history req e world hw := by
    rw [simple_after router, router]
    exact (errors _ world).trans hw
end

/-- **C100.** The application consists of a handler for requests and a handler for errors. A client sends requests one after another on a connection, in any segmentation, without waiting; they are well-formed and within the limits,
and each leaves the connection open; then it sends a malformed or over-limit head, in which a method is named and whose fault is not the version, and anything behind it. The handlers answer with responses which say how long they are; they do not hijack the connection, and leave some
fields of the request alone. Then what comes back is one response for each request, in order, and one for the malformed head, and nothing else; the i-th one is what the handler answers to the i-th request, for what this request says and the body sent with it; the last one is what
the handler for errors answers to a request which carries the error of the fault. -/
theorem C100_two_functions (E : Setup σ (Simple.Router Act)) (dec : DecodesChunked E.P) (router : E.router = Simple.impl Act) (cfg : Config)
    (size : cfg.bodyMaxSize < 2 ^ 64) (defaults : DefaultsOK E.F (cfg.defaultHeaders.getD [])) (enc : EncToken) (remote : Bytes)
    (handler errHandler : Handler Act) (good : Sending → Prop)
    (polite : ∀ r w f r', ((handler r).run E.P E.maxAlloc w).1 = some (f, r') → Untouched r r') (politeErr : Polite E errHandler)
    (answers : ∀ remote post e s after seen world, SendableWith E.F cfg s ∧ good s →
      Delivered E cfg.maxEncodingTokens.toNat remote post e s after seen world →
      ∃ f r' left, (handler seen).run E.P E.maxAlloc ⟨world.1, world.2, false⟩ = (some (f, r'), left) ∧ left.hijacked = false ∧
        Readable (cfg.defaultHeaders.getD []) seen.Proto f)
    (buffer : cfg.responseBuffSize < 16 ^ 8) (cl : Client) (quiet : Quiet cl) (writes : NoWriteError cl) (post : List (Bytes × Option GoErr))
    (ss : List Sending) (ok : ∀ s ∈ ss, SendableWith E.F cfg s ∧ good s) (keep : ∀ s ∈ ss, KeepsOpen s.head)
    (bad : Bytes) (e : Status.HTTPError) (fits : RequestLineFits (headLimits cfg).line bad) (clean : CleanStream bad)
    (fault : HeadFault (headLimits cfg) bad e) (version : e ≠ Status.ErrUnsupportedProtocol) (meth : Method) (named : NamesMethod bad meth)
    (errors : ∀ r (world : Act.World σ), world.hijacked = false →
      ∃ f r' left, (errHandler (failing r (.http e))).run E.P E.maxAlloc world = (some (f, r'), left) ∧ Readable (cfg.defaultHeaders.getD []) r.Proto f)
    (stream : cl.stream = ss.flatMap Sending.bytes ++ bad) :
    ∃ frames msgs last,
      (serve E (newConn E.P cfg enc remote ⟨handler, errHandler⟩ (followedBy cl post))).1.client.written = cl.written ++ frames ∧
      readReplies (ss.map (fun s => s.head.method) ++ [meth]) frames.flatten = some (msgs ++ [last]) ∧ msgs.length = ss.length ∧
      (∀ i : Nat, ∀ (s : Sending) (m : Msg), ss[i]? = some s → msgs[i]? = some m →
        ∃ e after seen world f r' left, Delivered E cfg.maxEncodingTokens.toNat remote post e s after seen world ∧
          (handler seen).run E.P E.maxAlloc ⟨world.1, world.2, false⟩ = (some (f, r'), left) ∧
          versionName seen.Proto = some m.version ∧ m.code = f.Code ∧ m.rest = (if s.head.method = .HEAD then [] else sentBody f) ∧
          SaysFields (cfg.defaultHeaders.getD []) f m.fields) ∧
      ∃ seen world f r' left, AtFault E.F (headLimits cfg) cfg.maxEncodingTokens.toNat bad remote e seen ∧ world.hijacked = false ∧
        (errHandler (failing seen (.http e))).run E.P E.maxAlloc world = (some (f, r'), left) ∧
        versionName seen.Proto = some last.version ∧ last.code = f.Code ∧ last.rest = (if meth = .HEAD then [] else sentBody f) ∧
        SaysFields (cfg.defaultHeaders.getD []) f last.fields := by
  have tame : Tame E ⟨handler, errHandler⟩ := simple_tame router polite
  have answering := simple_answering (errHandler := errHandler) router polite answers politeErr.hijacked
  have told_eq : ∀ history req, (E.router.onError (routerAfter E ⟨handler, errHandler⟩ history) req (.http e)).1 = errHandler (failing req (.http e)) := by
    intro history req
    rw [simple_after router, router]
    rfl
  have excusing : Excusing E (cfg.defaultHeaders.getD []) e ⟨handler, errHandler⟩ := by
    intro history req world hw
    obtain ⟨f, r', left, g1, g2⟩ := errors req world hw
    have hu := politeErr.request _ world f r' (by rw [g1])
    refine ⟨f, r', left, by rw [told_eq]; exact g1, ?_, g2, hu.method, hu.proto⟩
    have := politeErr.hijacked (failing req (.http e)) world
    rw [g1] at this
    exact this.trans hw
  obtain ⟨frames, msgs, last, h1, h2, h3, h4, h5⟩ := C32_reply_readable E dec cfg size defaults enc remote _ tame _ answering buffer cl quiet writes
    post ss ok keep bad e fits clean fault version meth named excusing stream
  refine ⟨frames, msgs, last, h1, h2, h3, ?_, ?_⟩
  · intro i s m hi hm
    obtain ⟨history, e, after, seen, world, f, req, left, -, del, ans, hver, hcode, hbody, hfields⟩ := h4 i s m hi hm
    unfold Answers at ans
    rw [simple_after router, router] at ans
    exact ⟨e, after, seen, world, f, req, left, del, ans, hver, hcode, hbody, hfields⟩
  · obtain ⟨history, seen, f, req, left, -, hat, ⟨world, hw, told⟩, rest⟩ := h5
    rw [told_eq] at told
    exact ⟨seen, world, f, req, left, hat, hw, told, rest⟩

/-! ### The hypotheses are met, and are needed -/

/-- The handler of the examples gives back the request as it is. -/
theorem report_same (r : Request) (w : Act.World CS) (f : Fields) (r' : Request) (h : ((report r).run refParser (2 ^ 32) w).1 = some (f, r')) : r' = r := by
  change (Act.run refParser (2 ^ 32) (Act.bind (Act.body .bytes _) _) w).1 = _ at h
  simp only [Act.bind, Act.run] at h
  generalize (Body.call refParser (2 ^ 32) (w.body, w.client) Body.Call.bytes) = a at h
  obtain ⟨a, s⟩ := a
  cases a <;> simp [Act.bind, Act.run, Pure.pure] at h <;> exact h.2.symm

theorem excuse_plain (p : Proto) (e : Status.HTTPError) (h : (400 : Nat) ≤ e.Code) :
    Readable (Config.default.defaultHeaders.getD []) p ((Fields.new.code e.Code).bytes e.Message) where
  clean := ⟨by simp [Fields.new, Fields.bytes, Fields.code], noBreak_html, noBreak_nil, by simp [Fields.new, Fields.bytes, Fields.code]⟩
  attachment _ h := by cases h
  framing := ⟨by simp [Fields.new, Fields.bytes, Fields.code], by decide +kernel, rfl⟩
  final := Nat.le_trans (by decide) h
  noBody h' := by
    have h' : (e.Code : Nat) = 204 ∨ (e.Code : Nat) = 304 := h'
    rcases h' with h' | h' <;> rw [h'] at h <;> exact absurd h (by decide)

/-- A head with a method the server does not know, and bytes behind it. -/
def brewing : Bytes := b!"BREW /pot HTTP/1.1\r\n\r\nGET / HTTP/1.1\r\n\r\n"

theorem brewing_fits : RequestLineFits (headLimits Config.default).line brewing ∧ CleanStream brewing := by
  have e1 : brewing = b!"BREW" ++ 32 :: (b!"/pot HTTP/1.1\r" ++ 10 :: b!"\r\nGET / HTTP/1.1\r\n\r\n") := rfl
  have key : ∀ m line rest : Bytes, brewing = m ++ 32 :: (line ++ 10 :: rest) → 32 ∉ m → 10 ∉ line →
      m = b!"BREW" ∧ line = b!"/pot HTTP/1.1\r" ∧ rest = b!"\r\nGET / HTTP/1.1\r\n\r\n" := by
    intro m line rest e h1 h2
    obtain ⟨a1, a2⟩ := Parser.cut_unique (e.symm.trans e1) h1 (by decide)
    obtain ⟨a3, a4⟩ := Parser.cut_unique a2 h2 (by decide)
    exact ⟨a1, a3, a4⟩
  refine ⟨⟨by decide +kernel, ?_, ?_⟩, ?_⟩
  · intro m line e h1 h2
    obtain ⟨_, a2⟩ := Parser.cut_unique (e.symm.trans e1) h1 (by decide)
    rw [a2] at h2; exact absurd h2 (by decide)
  · intro m line rest e h1 h2
    obtain ⟨rfl, rfl, _⟩ := key m line rest e h1 h2
    decide +kernel
  · intro m line rest e h1 h2
    obtain ⟨_, _, rfl⟩ := key m line rest e h1 h2
    exact .endCR _

/-- C32, C100: the hypotheses are met by two requests and a malformed head, cut into segments somehow, and this is what the client reads. -/
example : ∃ cl : Client, Quiet cl ∧ NoWriteError cl ∧ cl.stream = [posted, chunked].flatMap Sending.bytes ++ brewing ∧
    simple.router = Simple.impl Act ∧
    (∀ r w f r', ((report r).run simple.P simple.maxAlloc w).1 = some (f, r') → Untouched r r') ∧ Polite simple reportError ∧
    (∀ remote post e s after seen world, SendableWith simple.F Config.default s →
      Delivered simple Config.default.maxEncodingTokens.toNat remote post e s after seen world →
      ∃ f r' left, (report seen).run simple.P simple.maxAlloc ⟨world.1, world.2, false⟩ = (some (f, r'), left) ∧ left.hijacked = false ∧
        Readable (Config.default.defaultHeaders.getD []) seen.Proto f) ∧
    (∀ s ∈ [posted, chunked], SendableWith simple.F Config.default s ∧ KeepsOpen s.head) ∧
    RequestLineFits (headLimits Config.default).line brewing ∧ CleanStream brewing ∧
    HeadFault (headLimits Config.default) brewing Status.ErrMethodNotImplemented ∧ NamesMethod brewing .Unknown ∧
    (∀ r (world : Act.World CS), world.hijacked = false →
      ∃ f r' left, (reportError (failing r (.http Status.ErrMethodNotImplemented))).run simple.P simple.maxAlloc world = (some (f, r'), left) ∧
        Readable (Config.default.defaultHeaders.getD []) r.Proto f) ∧
    (readReplies [.POST, .POST, .Unknown]
      (serve simple (newConn simple.P Config.default 1 b!"1.2.3.4" ⟨report, reportError⟩ (followedBy cl []))).1.client.written.flatten).map
      (List.map (fun m => (m.code, m.rest))) =
      some [(200, b!"/a hello"), (200, b!"/b c hello"), (501, b!"request method is not supported")] := by
  refine ⟨arrive [posted.bytes.take 41, posted.bytes.drop 41 ++ chunked.bytes, brewing.take 3, brewing.drop 3],
    by unfold Quiet; decide +kernel, by simp [NoWriteError, arrive], by decide +kernel, rfl, ?_, ?_, ?_, ?_, ?_, ?_, ?_, ?_, ?_, by decide +kernel⟩
  · intro r w f r' h
    rw [report_same r w f r' h]
    exact ⟨rfl, rfl, rfl, rfl, rfl, id⟩
  · exact polite_pure simple reportError (fun r => ⟨_, rfl⟩)
  · intro remote post e s after seen world ok del
    obtain ⟨f, r', left, h1, h2, h3, -⟩ := report_answering.request [] remote post e s after seen world ok del
    exact ⟨f, r', left, h1, h2, h3⟩
  · have v' : ∀ p, IsVersion b!"HTTP/1.1" p → persists p [] = true := by
      rintro p ⟨sep, ⟨h, -⟩ | ⟨-, rfl⟩ | ⟨h, -⟩⟩
      · simp at h
      · decide
      · simp at h
    intro s hs
    simp only [List.mem_cons, List.not_mem_nil, or_false] at hs
    rcases hs with rfl | rfl
    · exact ⟨posted_ok, by decide, v', by decide⟩
    · exact ⟨chunked_ok, by decide, v', by decide⟩
  · exact brewing_fits.1
  · exact brewing_fits.2
  · exact .unknownMethod b!"BREW" _ (by decide) (by decide) (by intro k; cases k <;> decide)
  · exact ⟨b!"BREW", _, rfl, by decide, by decide, .inr ⟨rfl, by intro k _; cases k <;> decide⟩⟩
  · intro r world _
    exact ⟨_, _, _, rfl, excuse_plain _ _ (by decide)⟩

/-- C87: and those of `C87_malformed` about the malformed head by the program `diner` (whose other hypotheses are those met in `Program.lean`): it has no error handler for this code,
and so its answer is the default one, behind the middleware. -/
example : ∃ cl : Client, Quiet cl ∧ NoWriteError cl ∧ cl.stream = [posted, chunked].flatMap Sending.bytes ++ brewing ∧
    RequestLineFits (headLimits Config.default).line brewing ∧ CleanStream brewing ∧
    HeadFault (headLimits Config.default) brewing Status.ErrMethodNotImplemented ∧ NamesMethod brewing .Unknown ∧
    (∀ h r (world : Act.World CS), handlerFor dinerSetup.F (fun _ => []) diner Status.ErrMethodNotImplemented.Code = some h → world.hijacked = false →
      ∃ f r' left, (h (failing r (.http Status.ErrMethodNotImplemented))).run dinerSetup.P dinerSetup.maxAlloc world = (some (f, r'), left) ∧
        Readable (Config.default.defaultHeaders.getD []) r.Proto f) ∧
    (readReplies [.POST, .POST, .Unknown]
      (serve dinerSetup (newConn dinerSetup.P Config.default 1 b!"1.2.3.4" dinerRouter (followedBy cl []))).1.client.written.flatten).map
      (List.map (fun m => (m.code, m.rest))) =
      some [(200, b!"a!"), (200, b!"soup!"), (501, b!"!")] := by
  refine ⟨arrive [posted.bytes.take 41, posted.bytes.drop 41 ++ chunked.bytes, brewing.take 3, brewing.drop 3],
    by unfold Quiet; decide +kernel, by simp [NoWriteError, arrive], by decide +kernel, brewing_fits.1, brewing_fits.2,
    .unknownMethod b!"BREW" _ (by decide) (by decide) (by intro k; cases k <;> decide),
    ⟨b!"BREW", _, rfl, by decide, by decide, .inr ⟨rfl, by intro k _; cases k <;> decide⟩⟩, ?_, by decide +kernel⟩
  intro h r world hh _
  have : handlerFor Fold.ascii (fun _ => []) diner Status.ErrMethodNotImplemented.Code = some (loudly (defaultAllErrorsHandler (fun _ => []))) := rfl
  rw [show dinerSetup.F = Fold.ascii from rfl, this] at hh
  cases hh
  refine ⟨_, _, _, rfl, ?_⟩
  exact excuse_plain r.Proto { Status.ErrMethodNotImplemented with Message := [33] } (by decide)

/-- `HEAD /a HTTP/1.1`. -/
def peeked : Sending where
  head := { method := .HEAD, target := b!"/a", query := none, version := b!"HTTP/1.1", crlf := true, fields := [], lastCrlf := true }
  path := b!"/a"
  body := []
  coded := []

/-- **C32 is false** of heads which begin with a blank, in which no method is named: the method of the last request on the connection counts. Here this was HEAD, and therefore the
response to the malformed head announces a body of eleven bytes which does not come: whatever else the client takes for the method, it cannot read this response. -/
theorem C32_stale_method_violation : ∃ cl : Client, Quiet cl ∧ cl.stream = peeked.bytes ++ b!" /b HTTP/1.1\r\n\r\n" ∧
    SendableWith simple.F Config.default peeked ∧
    HeadFault (headLimits Config.default) b!" /b HTTP/1.1\r\n\r\n" Status.ErrBadRequest ∧
    (serve simple (newConn simple.P Config.default 0 b!"1.2.3.4" ⟨report, reportError⟩ cl)).1.client.written =
      [b!"HTTP/1.1 200 OK\r\nAccept-Encodings: identity\r\nContent-Type: text/html\r\nContent-Length: 3\r\n\r\n",
       b!"HTTP/1.1 400 Bad Request\r\nAccept-Encodings: identity\r\nContent-Type: text/html\r\nContent-Length: 11\r\n\r\n"] ∧
    ∀ m, m ≠ .HEAD → readReplies [.HEAD, m]
      (serve simple (newConn simple.P Config.default 0 b!"1.2.3.4" ⟨report, reportError⟩ cl)).1.client.written.flatten = none := by
  refine ⟨arrive [peeked.bytes ++ b!" /b HTTP/1.1\r\n\r\n"], by unfold Quiet; decide +kernel, by decide +kernel, ?_, .noMethod _, by decide +kernel, ?_⟩
  · exact {
      ok := ⟨by decide, by decide, by simp [peeked], ⟨⟨_, 46, .inr (.inl ⟨rfl, rfl⟩)⟩, by decide, by decide⟩, by simp [peeked]⟩
      clean := by unfold Head.CleanNames; decide
      noBareEmpty := by unfold Head.NoBareEmpty; decide
      fits := ⟨by decide +kernel, by decide +kernel, by decide +kernel, by decide +kernel, by decide +kernel⟩
      path := pct_lit (by decide)
      framed := .sized (by decide +kernel) rfl (by decide)
      body := by decide +kernel }
  · intro m hm
    cases m <;> first | exact absurd rfl hm | decide +kernel

/-- **C32 is false** of heads with a version which is not supported: the response has no version, and is none for a reader of HTTP/1.x. -/
theorem C32_no_version_violation : ∃ cl : Client, Quiet cl ∧ cl.stream = b!"GET /b HTTP/3.0\r\n\r\n" ∧
    HeadFault (headLimits Config.default) b!"GET /b HTTP/3.0\r\n\r\n" Status.ErrUnsupportedProtocol ∧
    (serve simple (newConn simple.P Config.default 0 b!"1.2.3.4" ⟨report, reportError⟩ cl)).1.client.written =
      [b!"505 HTTP Version Not Supported\r\nAccept-Encodings: identity\r\nContent-Type: text/html\r\nContent-Length: 25\r\n\r\nprotocol is not supported"] ∧
    readReplies [.GET] (serve simple (newConn simple.P Config.default 0 b!"1.2.3.4" ⟨report, reportError⟩ cl)).1.client.written.flatten = none := by
  refine ⟨arrive [b!"GET /b HTTP/3.0\r\n\r\n"], by unfold Quiet; decide +kernel, by decide +kernel, ?_, by decide +kernel, by decide +kernel⟩
  exact .line b!"GET" b!"/b HTTP/3.0\r" _ _ (by decide) (by decide) (by decide +kernel)
    (.badVersion .GET b!"/b" none b!"HTTP/3.0" true (by decide) (by decide) (by decide) (.lit (by decide) (.lit (by decide) .nil)) (by decide) nofun (by
      rintro ⟨p, sep, ⟨h, -⟩ | ⟨h, -⟩ | ⟨h, -⟩⟩ <;> simp at h))

end Indigo.Props
