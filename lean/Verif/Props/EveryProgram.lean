/-
C101 for programs made with the built-in router.
-/
import Verif.Props.Every
import Verif.Props.Hosts
import Verif.Props.Behaves
import Verif.Spec.EveryProgram

namespace Indigo.Props
open Indigo.Serve Indigo.Spec Indigo.Router Indigo.Spec.Router
variable {σ : Type} {text : GoErr → Bytes} {env : Env Act} {ops : List (Op Act)} {rt : Runtime Act}

theorem headErrors_other : ∀ e ∈ headErrors, e ≠ Status.ErrNotFound ∧ e ≠ Status.ErrMethodNotAllowed := by decide

/-- What the router answers to a request it echoes. -/
theorem program_echo {E : Setup σ (Runtime Act)} (router : E.router = Router.impl E.F .panic) (made : make E.F text env ops = some rt) {L : Lookup} {can : Request → Prop}
    (beh : Behaves E.F text ops rt L can) (history : List Request) {seen : Request}
    (he : Echoed ops L (arriving ops seen)) : ∃ r', Passed (arriving ops seen) r' ∧
      (E.router.onRequest (routerAfter E rt history) seen).1 =
        pure ({ Fields.new with ContentType := b!"message/http", Body := echoedText ops L history ++ echo (arriving ops seen) }, r') := by
  rw [remembers router made beh history, router]
  obtain ⟨r', hp, h⟩ := beh.echoes seen (echoedText ops L history) he
  refine ⟨r', hp, ?_⟩
  simp only [Router.impl]
  rw [h, Option.getD_some, traceResponse_eq]

/-- Which handler is called for a request it does not echo. -/
theorem program_calls {E : Setup σ (Runtime Act)} (router : E.router = Router.impl E.F .panic) (made : make E.F text env ops = some rt) {L : Lookup} {seen : Request} {can : Request → Prop}
    (beh : Behaves E.F text ops rt L can) (hcan : can seen)
    (history : List Request) (hne : ¬ Echoed ops L (arriving ops seen)) :
    ∃ h r, Chosen E.F text ops L (arriving ops seen) h r ∧ (E.router.onRequest (routerAfter E rt history) seen).1 = h r := by
  obtain ⟨b, hb⟩ := after_buff router made history
  obtain ⟨h, r, hc, hr⟩ := beh.calls seen b hcan hne
  refine ⟨h, r, hc, ?_⟩
  rw [hb, router]
  simp only [Router.impl, hr]
  rfl

/-- What a program answers to any request. -/
theorem program_serves {E : Setup σ (Runtime Act)} (router : E.router = Router.impl E.F .panic) {cfg : Config}
    (framing : ∀ d ∈ cfg.defaultHeaders.getD [], framingFields [d] = []) (made : make E.F text env ops = some rt) {L : Lookup} {seen : Request} {can : Request → Prop}
    (beh : Behaves E.F text ops rt L can) (hcan : can seen)
    (mutators : ∀ r, Untouched r (mutated ops r)) (polite : AllHandlers E.F text ops (Polite E))
    (answers : ∀ h r (world : Act.World σ), world.hijacked = false → ¬ Echoed ops L (arriving ops seen) → Chosen E.F text ops L (arriving ops seen) h r →
      ∃ f r' left, (h r).run E.P E.maxAlloc world = (some (f, r'), left) ∧ Readable (cfg.defaultHeaders.getD []) (answeredIn seen) f)
    (history : List Request) (world : BC σ) :
    ∃ f req' left, Answers E (routerAfter E rt history) seen world (some (f, req'), left) ∧
      left.hijacked = false ∧ Readable (cfg.defaultHeaders.getD []) (answeredIn seen) f ∧ Untouched seen req' := by
  have arrives : ∀ r, Untouched r (arriving ops r) := fun r => (mutators r).normalised _
  by_cases he : Echoed ops L (arriving ops seen)
  · obtain ⟨r', hp, h⟩ := program_echo router made beh history he
    exact ⟨_, r', ⟨world.1, world.2, false⟩, by unfold Answers; rw [h]; rfl, rfl, trace_readable framing _ _, (arrives seen).passed hp⟩
  · obtain ⟨h, r, hc, hr⟩ := program_calls router made beh hcan history he
    obtain ⟨f, r', left, h1, h2⟩ := answers h r ⟨world.1, world.2, false⟩ rfl he hc
    have hg := program_good polite (chosen_known hc)
    have hu := ((arrives seen).trans (chosen_untouched hc)).trans (hg.request r ⟨world.1, world.2, false⟩ f r' (by rw [h1]))
    refine ⟨f, r', left, by unfold Answers; rw [hr]; exact h1, ?_, h2, hu⟩
    have := hg.hijacked r ⟨world.1, world.2, false⟩
    rw [h1] at this
    exact this

/-- A reply which says what the router answered is the one which is due. -/
theorem served_by {E : Setup σ (Runtime Act)} (router : E.router = Router.impl E.F .panic) (made : make E.F text env ops = some rt) {L : Lookup} {seen : Request} {can : Request → Prop}
    (beh : Behaves E.F text ops rt L can) (hcan : can seen)
    (mutators : ∀ r, Untouched r (mutated ops r)) {defaults : List (Bytes × Bytes)} {history : List Request} {world : BC σ} {f : Fields} {req : Request}
    {left : Act.World σ} (ans : Answers E (routerAfter E rt history) seen world (some (f, req), left)) {meth : Method} (hmeth : seen.Method = meth) {m : Msg}
    (hver : versionName (answeredIn seen) = some m.version) (hcode : m.code = f.Code)
    (hbody : m.rest = (if meth = .HEAD then [] else sentBody f)) (hfields : SaysFields defaults f m.fields) :
    MetWith E text ops L defaults history seen meth m := by
  refine ⟨fun he => ?_, fun he => ?_⟩
  · obtain ⟨r', -, h⟩ := program_echo router made beh history he
    unfold Answers at ans
    rw [h] at ans
    cases ans
    have htrace : meth = .TRACE := by
      rw [← hmeth, ← ((mutators seen).normalised _).method]; exact he.1
    refine ⟨hver, hcode, ?_, ?_⟩
    · obtain ⟨ds, -, hf⟩ := hfields
      rw [hf]
      have : stripOWS b!"message/http" = b!"message/http" := by decide
      simp [this]
    · rw [hbody, if_neg (by rw [htrace]; decide)]
      rfl
  · obtain ⟨h, r, hc, hr⟩ := program_calls router made beh hcan history he
    unfold Answers at ans
    rw [hr] at ans
    exact ⟨h, r, hc, _, f, req, left, ans, hver, hcode, hbody, hfields⟩

/-- What a client reads from a program with a router which behaves. -/
theorem program_any_client (E : Setup σ (Runtime Act)) (dec : DecodesChunked E.P) (router : E.router = Router.impl E.F .panic) (cfg : Config)
    (size : cfg.bodyMaxSize < 2 ^ 64) (defaults : DefaultsOK E.F (cfg.defaultHeaders.getD []))
    (framing : ∀ d ∈ cfg.defaultHeaders.getD [], framingFields [d] = []) (enc : EncToken) (remote : Bytes)
    (ops : List (Op Act)) (made : make E.F text env ops = some rt) (L : Lookup) (good : Bytes → Prop)
    {can : Request → Prop} (beh : Behaves E.F text ops rt L can) (found : ∀ seen : Request, good seen.Path → can seen)
    (mutators : ∀ r, Untouched r (mutated ops r)) (polite : AllHandlers E.F text ops (Polite E))
    (answers : ∀ seen h r (world : Act.World σ), world.hijacked = false → ¬ Echoed ops L (arriving ops seen) → Chosen E.F text ops L (arriving ops seen) h r →
      ∃ f r' left, (h r).run E.P E.maxAlloc world = (some (f, r'), left) ∧ Readable (cfg.defaultHeaders.getD []) (answeredIn seen) f)
    (errors : ∀ e ∈ headErrors, ∀ h r (world : Act.World σ), handlerFor E.F text ops e.Code = some h → world.hijacked = false →
      ∃ f r' left, (h (failing r (.http e))).run E.P E.maxAlloc world = (some (f, r'), left) ∧ Readable (cfg.defaultHeaders.getD []) r.Proto f)
    (buffer : cfg.responseBuffSize < 16 ^ 8) (cl : Client) (quiet : Quiet cl) (writes : NoWriteError cl) (post : List (Bytes × Option GoErr)) (over : Over post)
    (ss : List Sending) (tail : Bytes) (kind : Kind) (stream : cl.stream = ss.flatMap Sending.bytes ++ tail)
    (ok : ∀ s ∈ ss, SendableWith E.F cfg s ∧ good s.path)
    (of : kind.Of E.F (headLimits cfg) cfg.maxEncodingTokens.toNat cfg.bodyMaxSize.toNat tail)
    (okLast : ∀ h path given, kind = .last h path given ∨ kind = .garbled h path given → good path) :
    ∃ k frames1 frames2 msgs,
      (serve E (newConn E.P cfg enc remote rt (followedBy cl post))).1.client.written = cl.written ++ frames1 ++ frames2 ∧
      k ≤ ss.length ∧ msgs.length = k ∧
      (∀ ms more l, readAnswers ms more = some l →
        readAnswers ((ss.take k).map (fun s => s.head.method) ++ ms) (frames1.flatten ++ more) = some (msgs ++ l)) ∧
      (∀ i : Nat, ∀ (s : Sending) (a : Option Msg × Msg), ss[i]? = some s → msgs[i]? = some a →
        ∃ history e after seen world, HeardBefore E cfg.maxEncodingTokens.toNat remote post (ss.take i) history ∧
          Delivered E cfg.maxEncodingTokens.toNat remote post e s after seen world ∧ Interim (cfg.defaultHeaders.getD []) history seen a.1 ∧
          MetWith E text ops L (cfg.defaultHeaders.getD []) history seen s.head.method a.2) ∧
      ((frames2 = [] ∧ ∃ s, 0 < k ∧ ss[k - 1]? = some s ∧ ¬ LeavesOpen s.head) ∨
       (k = ss.length ∧ kind.Gets E text ops L (cfg.defaultHeaders.getD []) ss (headLimits cfg) cfg.maxEncodingTokens.toNat remote tail post frames2.flatten)) := by
  have tame : Tame E rt := program_tame router made mutators polite
  have answering : AnsweringIn answeredIn E (fun s => SendableWith E.F cfg s ∧ good s.path) cfg.maxEncodingTokens.toNat (cfg.defaultHeaders.getD []) rt := by
    refine ⟨?_, ?_⟩
    · intro history remote post e s after seen world hok del
      obtain ⟨f, req', left, h1, h2, h3, h4⟩ := program_serves router framing made beh (found seen (by rw [del.path]; exact hok.2)) mutators polite (answers seen) history world
      exact ⟨f, req', left, h1, h2, h3, h4.method, h4.connection, h4.upgrade⟩
    · intro history req e world hw
      obtain ⟨b, hb⟩ := after_buff router made history
      rw [hb, router]
      simp only [Router.impl, Runtime.onError]
      rcases error_known (built E.F text env ops rt made) (C41_always_one E.F text ops) b
        (Runtime.runMutators { rt with traceBuff := b } req) e with ⟨h, r, hk, -, h1⟩ | ⟨-, -, f, b', h1⟩ | ⟨-, h1⟩
      · rw [h1, (program_good polite hk).hijacked r world]; exact hw
      · rw [h1]; exact hw
      · rw [h1]; exact hw
  have cutting : AnsweringCut E (fun _ path => good path) (headLimits cfg) cfg.maxEncodingTokens.toNat cfg.bodyMaxSize.toNat
      (cfg.defaultHeaders.getD []) rt := by
    intro history remote post env h path given seen world hok _ _ ann
    obtain ⟨f, req', left, h1, h2, h3, h4⟩ := program_serves router framing made beh (found seen (by rw [ann.path]; exact hok)) mutators polite (answers seen) history world
    exact ⟨f, req', left, h1, h2, h3, h4.method⟩
  have excusing : ∀ e ∈ headErrors, Excusing E (cfg.defaultHeaders.getD []) e rt := by
    intro e he history req world hw
    obtain ⟨n1, n2⟩ := headErrors_other e he
    obtain ⟨h, hh, hr⟩ := error_chosen router made history req e n1 n2
    obtain ⟨f, r', left, g1, g2⟩ := errors e he h (mutated ops req) world hh hw
    have hg := program_good polite (handlerFor_known hh)
    have hu := hg.request _ world f r' (by rw [g1])
    refine ⟨f, r', left, by rw [hr]; exact g1, ?_, ?_, hu.method.trans (mutators req).method, hu.proto.trans (mutators req).proto⟩
    · have := hg.hijacked (failing (mutated ops req) (.http e)) world
      rw [g1] at this
      exact this.trans hw
    · rw [← (mutators req).proto]; exact g2
  obtain ⟨k, frames1, frames2, msgs, h1, h2, h3, h4, h5, h6⟩ := C101_every_client_partial E dec cfg size defaults enc remote rt tame _ answering _ cutting excusing
    buffer cl quiet writes post over ss tail kind stream ok of okLast
  refine ⟨k, frames1, frames2, msgs, h1, h2, h3, h4, ?_, ?_⟩
  · intro i s m hi hm
    obtain ⟨history, e, after, seen, world, f, req, left, heard, del, ans, hint, hver, hcode, hbody, hfields⟩ := h5 i s m hi hm
    exact ⟨history, e, after, seen, world, heard, del, hint,
      served_by router made beh (found seen (by rw [del.path]; exact (ok s (List.mem_of_getElem? hi)).2)) mutators ans del.carries.method hver hcode hbody hfields⟩
  have refused : ∀ e ∈ headErrors, ∀ meth m, Refused E rt (cfg.defaultHeaders.getD []) ss (headLimits cfg) cfg.maxEncodingTokens.toNat remote post tail meth e m →
      ∃ seen h, AtFault E.F (headLimits cfg) cfg.maxEncodingTokens.toNat tail remote e seen ∧ handlerFor E.F text ops e.Code = some h ∧
        AnsweredBy E (cfg.defaultHeaders.getD []) h (failing (mutated ops seen) (.http e)) meth seen.Proto m := by
    intro e he meth m ⟨history, seen, f, req, left, _, hat, ⟨world, hw, told⟩, rest⟩
    obtain ⟨n1, n2⟩ := headErrors_other e he
    obtain ⟨h, hh, hr⟩ := error_chosen router made history seen e n1 n2
    rw [hr] at told
    exact ⟨seen, h, hat, hh, world, f, req, left, told, rest⟩
  refine h6.imp id (fun ⟨hk, h⟩ => ⟨hk, ?_⟩)
  cases kind with
  | unfinished => exact h
  | crashing => exact h
  | faulty e =>
    intro version meth named
    obtain ⟨m, hm, hr⟩ := h version meth named
    obtain ⟨seen, hd, g⟩ := refused e (fault_errors of.2.2) meth m hr
    exact ⟨m, seen, hd, hm, g⟩
  | tooLong =>
    obtain ⟨e, he, h⟩ := h
    refine ⟨e, he, fun long meth named => ?_⟩
    obtain ⟨m, hm, hr⟩ := h long meth named
    obtain ⟨seen, hd, g⟩ := refused e (by clear h hr long; revert e; decide) meth m hr
    exact ⟨m, seen, hd, hm, g⟩
  | last hd path given =>
    obtain ⟨m, hm, history, env, seen, world, f, req, left, heard, ann, ans, hint, hver, hcode, hbody, hfields⟩ := h
    exact ⟨m, history, env, seen, world, hm, heard, ann, hint,
      served_by router made beh (found seen (by rw [ann.path]; exact okLast _ _ _ (.inl rfl))) mutators ans ann.carries.method hver hcode hbody hfields⟩
  | garbled hd path given =>
    obtain ⟨m, bytes, hm, history, env, seen, world, f, req, left, heard, ann, ans, hint, hver, hcode, hbody, hfields⟩ := h
    exact ⟨m, bytes, history, env, seen, world, hm, heard, ann, hint,
      served_by router made beh (found seen (by rw [ann.path]; exact okLast _ _ _ (.inr rfl))) mutators ans ann.carries.method hver hcode hbody hfields⟩
  | outside => trivial

/-- **C101.** The program of the user is any sequence of calls to the built-in router. Its handlers answer with responses which say how long they are, whatever request they are called with by the router, and its error handlers do so when they are called because of a head which is refused;
they do not hijack the connection, and leave some fields of the request alone. Whatever bytes a client sends, in whatever segmentation, which are well-formed requests (none of them, if there are routes with variables, for a path which does not begin with a slash),
and then anything: what comes back is a sequence of answers, one for each of the first `k` of the requests, each being the response of the handler of the program which is to be called for it, or what the router answers itself to TRACE requests (after an interim one, if the request asks for another version of HTTP/1), and then what is due to what comes after the requests.
Only if the k-th request does not keep the connection open, the requests after it and what comes after them are not answered. (Missing: as in `C101_every_client_partial`.) -/
theorem C101_program_partial (E : Setup σ (Runtime Act)) (dec : DecodesChunked E.P) (router : E.router = Router.impl E.F .panic) (cfg : Config)
    (size : cfg.bodyMaxSize < 2 ^ 64) (defaults : DefaultsOK E.F (cfg.defaultHeaders.getD []))
    (framing : ∀ d ∈ cfg.defaultHeaders.getD [], framingFields [d] = []) (enc : EncToken) (remote : Bytes)
    (ops : List (Op Act)) (made : make E.F text env ops = some rt) (L : Lookup) (good : Bytes → Prop)
    (lookup : (L = .static ops ∧ Static ops) ∨
      ∃ ts, L = .templates ts ∧ Templates ops ts ∧ (∀ path, good path → ∃ p, path = SLASH :: p) ∧
        ∀ r p, r.Path = SLASH :: p → ∃ p', (mutated ops r).Path = SLASH :: p')
    (mutators : ∀ r, Untouched r (mutated ops r)) (polite : AllHandlers E.F text ops (Polite E))
    (answers : ∀ seen h r (world : Act.World σ), world.hijacked = false → ¬ Echoed ops L (arriving ops seen) → Chosen E.F text ops L (arriving ops seen) h r →
      ∃ f r' left, (h r).run E.P E.maxAlloc world = (some (f, r'), left) ∧ Readable (cfg.defaultHeaders.getD []) (answeredIn seen) f)
    (errors : ∀ e ∈ headErrors, ∀ h r (world : Act.World σ), handlerFor E.F text ops e.Code = some h → world.hijacked = false →
      ∃ f r' left, (h (failing r (.http e))).run E.P E.maxAlloc world = (some (f, r'), left) ∧ Readable (cfg.defaultHeaders.getD []) r.Proto f)
    (buffer : cfg.responseBuffSize < 16 ^ 8) (cl : Client) (quiet : Quiet cl) (writes : NoWriteError cl) (post : List (Bytes × Option GoErr)) (over : Over post)
    (ss : List Sending) (tail : Bytes) (kind : Kind) (stream : cl.stream = ss.flatMap Sending.bytes ++ tail)
    (ok : ∀ s ∈ ss, SendableWith E.F cfg s ∧ good s.path)
    (of : kind.Of E.F (headLimits cfg) cfg.maxEncodingTokens.toNat cfg.bodyMaxSize.toNat tail)
    (okLast : ∀ h path given, kind = .last h path given ∨ kind = .garbled h path given → good path) :
    ∃ k frames1 frames2 msgs,
      (serve E (newConn E.P cfg enc remote rt (followedBy cl post))).1.client.written = cl.written ++ frames1 ++ frames2 ∧
      k ≤ ss.length ∧ msgs.length = k ∧
      (∀ ms more l, readAnswers ms more = some l →
        readAnswers ((ss.take k).map (fun s => s.head.method) ++ ms) (frames1.flatten ++ more) = some (msgs ++ l)) ∧
      (∀ i : Nat, ∀ (s : Sending) (a : Option Msg × Msg), ss[i]? = some s → msgs[i]? = some a →
        ∃ history e after seen world, HeardBefore E cfg.maxEncodingTokens.toNat remote post (ss.take i) history ∧
          Delivered E cfg.maxEncodingTokens.toNat remote post e s after seen world ∧ Interim (cfg.defaultHeaders.getD []) history seen a.1 ∧
          MetWith E text ops L (cfg.defaultHeaders.getD []) history seen s.head.method a.2) ∧
      ((frames2 = [] ∧ ∃ s, 0 < k ∧ ss[k - 1]? = some s ∧ ¬ LeavesOpen s.head) ∨
       (k = ss.length ∧ kind.Gets E text ops L (cfg.defaultHeaders.getD []) ss (headLimits cfg) cfg.maxEncodingTokens.toNat remote tail post frames2.flatten)) := by
  rcases lookup with ⟨rfl, hs⟩ | ⟨ts, rfl, ht, h3, h4⟩
  · exact program_any_client E dec router cfg size defaults framing enc remote ops made _ good (behaves_static made hs) (fun _ _ => trivial) mutators polite answers errors
      buffer cl quiet writes post over ss tail kind stream ok of okLast
  · exact program_any_client E dec router cfg size defaults framing enc remote ops made _ good (behaves_templates made ht)
      (fun seen hg => by obtain ⟨p, hp⟩ := h3 _ hg; exact h4 seen p hp) mutators polite answers errors
      buffer cl quiet writes post over ss tail kind stream ok of okLast

theorem unescapes_ne {e s : Bytes} (h : Unescapes e s) (he : e ≠ []) : s ≠ [] := by
  cases h with
  | nil => exact absurd rfl he
  | lit _ _ => exact List.cons_ne_nil _ _
  | esc _ => exact List.cons_ne_nil _ _

/-- Only an empty path is empty without its trailing slashes. -/
theorem normalize_empty {path : Bytes} (h : UriNormalize.normalize path = []) : path = [] := by
  obtain ⟨n, hn⟩ := (C43_only_slashes_removed path).2
  rw [h, List.nil_append] at hn
  rw [C43_short_paths_partial _ (fun c hc => by
    rw [hn] at hc; exact (List.mem_replicate.1 (List.mem_of_mem_drop hc)).2)] at h
  exact h

set_option linter.unusedVariables false in
/-- **C101**, for every program whatsoever: its routes may be any texts (see C104 for what they are taken for, and which sequences of calls make a router). If some of them have variables, its mutators do not make paths empty.
Nothing is supposed of the paths which are asked for. (Missing: as in `C101_every_client_partial`.) -/
theorem C101_any_program_partial (E : Setup σ (Runtime Act)) (dec : DecodesChunked E.P) (router : E.router = Router.impl E.F .panic) (cfg : Config)
    (size : cfg.bodyMaxSize < 2 ^ 64) (defaults : DefaultsOK E.F (cfg.defaultHeaders.getD []))
    (framing : ∀ d ∈ cfg.defaultHeaders.getD [], framingFields [d] = []) (enc : EncToken) (remote : Bytes)
    (ops : List (Op Act)) (made : make E.F text env ops = some rt)
    (mutators : ∀ r, Untouched r (mutated ops r)) (paths : HasVariables ops → ∀ r, r.Path ≠ [] → (mutated ops r).Path ≠ [])
    (polite : AllHandlers E.F text ops (Polite E)) :
    ∃ L, Looks ops L ∧ ∀
      (answers : ∀ seen h r (world : Act.World σ), world.hijacked = false → ¬ Echoed ops L (arriving ops seen) → Chosen E.F text ops L (arriving ops seen) h r →
        ∃ f r' left, (h r).run E.P E.maxAlloc world = (some (f, r'), left) ∧ Readable (cfg.defaultHeaders.getD []) (answeredIn seen) f)
      (errors : ∀ e ∈ headErrors, ∀ h r (world : Act.World σ), handlerFor E.F text ops e.Code = some h → world.hijacked = false →
        ∃ f r' left, (h (failing r (.http e))).run E.P E.maxAlloc world = (some (f, r'), left) ∧ Readable (cfg.defaultHeaders.getD []) r.Proto f)
      (buffer : cfg.responseBuffSize < 16 ^ 8) (cl : Client) (quiet : Quiet cl) (writes : NoWriteError cl) (post : List (Bytes × Option GoErr)) (over : Over post)
      (ss : List Sending) (tail : Bytes) (kind : Kind) (stream : cl.stream = ss.flatMap Sending.bytes ++ tail)
      (ok : ∀ s ∈ ss, SendableWith E.F cfg s)
      (of : kind.Of E.F (headLimits cfg) cfg.maxEncodingTokens.toNat cfg.bodyMaxSize.toNat tail),
      ∃ k frames1 frames2 msgs,
        (serve E (newConn E.P cfg enc remote rt (followedBy cl post))).1.client.written = cl.written ++ frames1 ++ frames2 ∧
        k ≤ ss.length ∧ msgs.length = k ∧
        (∀ ms more l, readAnswers ms more = some l →
          readAnswers ((ss.take k).map (fun s => s.head.method) ++ ms) (frames1.flatten ++ more) = some (msgs ++ l)) ∧
        (∀ i : Nat, ∀ (s : Sending) (a : Option Msg × Msg), ss[i]? = some s → msgs[i]? = some a →
          ∃ history e after seen world, HeardBefore E cfg.maxEncodingTokens.toNat remote post (ss.take i) history ∧
            Delivered E cfg.maxEncodingTokens.toNat remote post e s after seen world ∧ Interim (cfg.defaultHeaders.getD []) history seen a.1 ∧
            MetWith E text ops L (cfg.defaultHeaders.getD []) history seen s.head.method a.2) ∧
        ((frames2 = [] ∧ ∃ s, 0 < k ∧ ss[k - 1]? = some s ∧ ¬ LeavesOpen s.head) ∨
         (k = ss.length ∧ kind.Gets E text ops L (cfg.defaultHeaders.getD []) ss (headLimits cfg) cfg.maxEncodingTokens.toNat remote tail post frames2.flatten)) := by
  obtain ⟨L, hL, beh⟩ := behaves_any made
  refine ⟨L, hL, ?_⟩
  intro answers errors buffer cl quiet writes post over ss tail kind stream ok of
  refine program_any_client E dec router cfg size defaults framing enc remote ops made L (fun path => path ≠ []) beh ?_ mutators polite answers errors
    buffer cl quiet writes post over ss tail kind stream (fun s hs => ⟨ok s hs, unescapes_ne (ok s hs).path (ok s hs).ok.target.1⟩) of ?_
  · intro seen hne ⟨hv, he⟩
    exact paths hv seen hne (normalize_empty he)
  · rintro h path given (rfl | rfl)
    · exact unescapes_ne of.2.1.path of.2.1.ok.target.1
    · exact unescapes_ne of.2.1.path of.2.1.ok.target.1

/-! ### The hypotheses are met -/

/-- The response of the default error handler to a refused head. -/
theorem default_readable (p : Proto) : ∀ e ∈ headErrors, Readable (Config.default.defaultHeaders.getD []) p (Fields.new.code e.Code) := by
  intro e he
  have : (400 : Nat) ≤ e.Code := by revert e; decide
  exact {
    clean := ⟨by simp [Fields.new, Fields.code], noBreak_html, noBreak_nil, by simp [Fields.new, Fields.code]⟩
    attachment := fun _ h => by cases h
    framing := ⟨by simp [Fields.new, Fields.code], by decide +kernel, rfl⟩
    final := Nat.le_trans (by decide) this
    noBody := fun h' => by
      have h' : (e.Code : Nat) = 204 ∨ (e.Code : Nat) = 304 := h'
      rcases h' with h' | h' <;> rw [h'] at this <;> exact absurd this (by decide) }

/-- C101: a program with a catcher and a handler for the error 404; a request, and one whose body does not come to its end; both are answered. Then the same with a head with a method nobody knows. -/
example : ∃ rt cl cl', make dinerSetup.F (fun _ => []) sampleEnv (house b!"A") = some rt ∧ Static (house b!"A") ∧
    (∀ r, Untouched r (mutated (house b!"A") r)) ∧ AllHandlers dinerSetup.F (fun _ => []) (house b!"A") (Polite dinerSetup) ∧
    (∀ seen h r (world : Act.World CS), world.hijacked = false →
      ¬ Echoed (house b!"A") (.static (house b!"A")) (arriving (house b!"A") seen) → Chosen dinerSetup.F (fun _ => []) (house b!"A") (.static (house b!"A")) (arriving (house b!"A") seen) h r →
      ∃ f r' left, (h r).run dinerSetup.P dinerSetup.maxAlloc world = (some (f, r'), left) ∧ Readable (Config.default.defaultHeaders.getD []) (answeredIn seen) f) ∧
    (∀ e ∈ headErrors, ∀ h r (world : Act.World CS), handlerFor dinerSetup.F (fun _ => []) (house b!"A") e.Code = some h → world.hijacked = false →
      ∃ f r' left, (h (failing r (.http e))).run dinerSetup.P dinerSetup.maxAlloc world = (some (f, r'), left) ∧
        Readable (Config.default.defaultHeaders.getD []) r.Proto f) ∧
    Quiet cl ∧ NoWriteError cl ∧ cl.stream = [chunked].flatMap Sending.bytes ++ beginning ∧
    (∀ s ∈ [chunked], SendableWith dinerSetup.F Config.default s ∧ True) ∧
    (Kind.last posted.head posted.path b!"hel").Of dinerSetup.F (headLimits Config.default) Config.default.maxEncodingTokens.toNat Config.default.bodyMaxSize.toNat beginning ∧
    (readAnswers [.POST, .POST]
      (serve dinerSetup (newConn dinerSetup.P Config.default 1 b!"1.2.3.4" rt (followedBy cl []))).1.client.written.flatten).map
      (List.map (fun a => (a.1.isSome, a.2.code, a.2.rest))) = some [(false, 200, b!"A"), (false, 200, b!"A")] ∧
    Quiet cl' ∧ NoWriteError cl' ∧ cl'.stream = [chunked].flatMap Sending.bytes ++ brewing ∧
    (Kind.faulty Status.ErrMethodNotImplemented).Of dinerSetup.F (headLimits Config.default) Config.default.maxEncodingTokens.toNat Config.default.bodyMaxSize.toNat brewing ∧
    NamesMethod brewing .Unknown ∧
    (readAnswers [.POST, .Unknown]
      (serve dinerSetup (newConn dinerSetup.P Config.default 1 b!"1.2.3.4" rt (followedBy cl' []))).1.client.written.flatten).map
      (List.map (fun a => (a.1.isSome, a.2.code, a.2.rest))) = some [(false, 200, b!"A"), (false, 501, [])] := by
  refine ⟨(houseTenant b!"A").router, arrive [chunked.bytes ++ beginning.take 30, beginning.drop 30], arrive [chunked.bytes ++ brewing.take 3, brewing.drop 3],
    by simp [houseTenant, dinerSetup], (fun d hd => by cases hd), fun r => ⟨rfl, rfl, rfl, rfl, rfl, id⟩, ?_, ?_, ?_, by unfold Quiet; decide +kernel, by simp [NoWriteError, arrive],
    by decide +kernel, ?_, ⟨rfl, ?_, .short (by decide +kernel) (by decide +kernel)⟩, by decide +kernel,
    by unfold Quiet; decide +kernel, by simp [NoWriteError, arrive], by decide +kernel, ?_,
    ⟨b!"BREW", _, rfl, by decide, by decide, .inr ⟨rfl, by intro k _; cases k <;> decide⟩⟩, by decide +kernel⟩
  · refine ⟨fun d (hd : d ∈ []) => (List.not_mem_nil hd).elim, ?_, ?_⟩
    · intro c hc
      have : catchers (house b!"A") = [(b!"/", fun r => pure (Fields.new.bytes b!"A", r))] := rfl
      rw [this] at hc
      rw [List.mem_singleton.1 hc]
      exact polite_pure _ _ (fun r => ⟨_, rfl⟩)
    · intro e he
      have : errorHandlers (Spec.Router.defaults dinerSetup.F (fun _ => [])) (house b!"A") = [(0, defaultAllErrorsHandler (fun _ => [])),
        (405, defaultMethodNotAllowedHandler Fold.ascii (fun _ => [])), (404, fun r => pure (Fields.new.bytes b!"A", r))] := rfl
      rw [this] at he
      simp only [List.mem_cons, List.not_mem_nil, or_false] at he
      rcases he with rfl | rfl | rfl <;> exact polite_pure _ _ (fun r => ⟨_, rfl⟩)
  · intro seen h r world _ _ hc
    have : (h r).run dinerSetup.P dinerSetup.maxAlloc world = (some (Fields.new.bytes b!"A", r), world) := by
      cases hc with
      | route _ _ h => cases h
      | head _ _ _ _ h => cases h
      | notAllowed h => exact absurd rfl h.2.2
      | caught _ _ h =>
        have : catchers (house b!"A") = [(b!"/", fun r => pure (Fields.new.bytes b!"A", r))] := rfl
        rw [this] at h
        cases List.mem_singleton.1 h
        rfl
      | notFound _ _ _ h =>
        have : handlerFor dinerSetup.F (fun _ => []) (house b!"A") 404 = some (fun r => pure (Fields.new.bytes b!"A", r)) := rfl
        rw [show (Status.NotFound : Status.Code) = 404 from rfl, this] at h
        cases h
        rfl
    exact ⟨_, _, _, this, report_plain _ _⟩
  · intro e he h r world hh _
    have key : ∀ e ∈ headErrors, handlerFor dinerSetup.F (fun _ => []) (house b!"A") e.Code = some (defaultAllErrorsHandler (fun _ => [])) := by
      intro e he
      simp only [headErrors, List.mem_cons, List.not_mem_nil, or_false] at he
      rcases he with rfl | rfl | rfl | rfl | rfl | rfl | rfl | rfl <;> rfl
    rw [key e he] at hh
    cases hh
    exact ⟨_, _, _, rfl, default_readable _ e he⟩
  · intro s hs
    cases List.mem_singleton.1 hs
    exact ⟨chunked_ok, trivial⟩
  · exact ⟨posted_ok.ok, posted_ok.clean, posted_ok.noBareEmpty, posted_ok.fits, posted_ok.path⟩
  · exact ⟨brewing_fits.1, brewing_fits.2, .unknownMethod b!"BREW" _ (by decide) (by decide) (by intro k; cases k <;> decide)⟩

/-- Two routes which are taken for the same template, with different methods: only one of them is ever found. -/
def users : List (Op Act) :=
  [.route 0 .GET b!"/users/{id}" (fun r => pure (Fields.new.bytes b!"A", r)) [], .route 0 .POST b!"/users/{id}/x" (fun r => pure (Fields.new.bytes b!"B", r)) [],
    .routeError 0 (fun r => pure (Fields.new.bytes b!"C", r)) [404, 405]]

theorem users_made : (make dinerSetup.F (fun _ => []) sampleEnv users).isSome = true := by decide +kernel

set_option maxRecDepth 200000 in
/-- C101 for any program: one with such routes. -/
theorem users_program : ∃ rt, make dinerSetup.F (fun _ => []) sampleEnv users = some rt ∧ HasVariables users ∧ (∀ r, Untouched r (mutated users r)) ∧
    (∀ r : Request, r.Path ≠ [] → (mutated users r).Path ≠ []) ∧ AllHandlers dinerSetup.F (fun _ => []) users (Polite dinerSetup) ∧
    (∀ L, Looks users L → ∀ seen h r (world : Act.World CS), world.hijacked = false → ¬ Echoed users L (arriving users seen) →
      Chosen dinerSetup.F (fun _ => []) users L (arriving users seen) h r →
      ∃ f r' left, (h r).run dinerSetup.P dinerSetup.maxAlloc world = (some (f, r'), left) ∧ Readable (Config.default.defaultHeaders.getD []) (answeredIn seen) f) ∧
    (∀ e ∈ headErrors, ∀ h r (world : Act.World CS), handlerFor dinerSetup.F (fun _ => []) users e.Code = some h → world.hijacked = false →
      ∃ f r' left, (h (failing r (.http e))).run dinerSetup.P dinerSetup.maxAlloc world = (some (f, r'), left) ∧
        Readable (Config.default.defaultHeaders.getD []) r.Proto f) ∧
    (readAnswers [.POST, .GET]
      (serve dinerSetup (newConn dinerSetup.P Config.default 1 b!"1.2.3.4" rt
        (arrive [b!"POST /users/7 HTTP/1.1\r\n\r\nGET /use", b!"rs/7/ HTTP/1.1\r\n\r\n"]))).1.client.written.flatten).map
      (List.map (fun a => (a.1.isSome, a.2.code, a.2.rest))) = some [(false, 200, b!"B"), (false, 200, b!"C")] := by
  have handlers : ∀ c ∈ [404, 405], handlerFor dinerSetup.F (fun _ => []) users c = some (fun r => pure (Fields.new.bytes b!"C", r)) := by
    intro c hc
    simp only [List.mem_cons, List.not_mem_nil, or_false] at hc
    rcases hc with rfl | rfl <;> rfl
  have ht : templatesOf users = [[.lit b!"users", .var b!"id"], [.lit b!"users", .var b!"id"]] := by decide +kernel
  have hd : declared users = [((b!"/users/{id}", .GET), fun r => pure (Fields.new.bytes b!"A", r)), ((b!"/users/{id}/x", .POST), fun r => pure (Fields.new.bytes b!"B", r))] := rfl
  refine ⟨(make dinerSetup.F (fun _ => []) sampleEnv users).get users_made, by simp, ⟨[.lit b!"users", .var b!"id"], by rw [ht]; simp, b!"id", by simp⟩,
    fun r => ⟨rfl, rfl, rfl, rfl, rfl, id⟩, fun r h => h, ⟨?_, (fun c (hc : c ∈ []) => (List.not_mem_nil hc).elim), ?_⟩, ?_, ?_, by decide +kernel⟩
  · intro d hd'
    rw [hd] at hd'
    simp only [List.mem_cons, List.not_mem_nil, or_false] at hd'
    rcases hd' with rfl | rfl <;> exact polite_pure _ _ (fun r => ⟨_, rfl⟩)
  · intro e he
    have : errorHandlers (Spec.Router.defaults dinerSetup.F (fun _ => [])) users = [(0, defaultAllErrorsHandler (fun _ => [])),
      (405, defaultMethodNotAllowedHandler Fold.ascii (fun _ => [])), (404, fun r => pure (Fields.new.bytes b!"C", r)), (405, fun r => pure (Fields.new.bytes b!"C", r))] := rfl
    rw [this] at he
    simp only [List.mem_cons, List.not_mem_nil, or_false] at he
    rcases he with rfl | rfl | rfl | rfl <;> exact polite_pure _ _ (fun r => ⟨_, rfl⟩)
  · intro L _ seen h r world _ _ hc
    have : ∃ x, h = fun r => pure (Fields.new.bytes x, r) := by
      cases hc with
      | route _ _ h' =>
        rw [hd] at h'
        simp only [List.mem_cons, List.not_mem_nil, or_false, Prod.mk.injEq] at h'
        rcases h' with ⟨-, rfl⟩ | ⟨-, rfl⟩ <;> exact ⟨_, rfl⟩
      | head _ _ _ _ h' =>
        rw [hd] at h'
        simp only [List.mem_cons, List.not_mem_nil, or_false, Prod.mk.injEq] at h'
        rcases h' with ⟨-, rfl⟩ | ⟨-, rfl⟩ <;> exact ⟨_, rfl⟩
      | notAllowed _ _ _ _ h' =>
        rw [show (Status.MethodNotAllowed : Status.Code) = 405 from rfl, handlers 405 (by simp)] at h'
        cases h'
        exact ⟨_, rfl⟩
      | caught _ _ h' => cases h'
      | notFound _ _ _ h' =>
        rw [show (Status.NotFound : Status.Code) = 404 from rfl, handlers 404 (by simp)] at h'
        cases h'
        exact ⟨_, rfl⟩
    obtain ⟨x, rfl⟩ := this
    exact ⟨_, _, _, rfl, report_plain _ _⟩
  · intro e he h r world hh _
    have key : ∀ e ∈ headErrors, handlerFor dinerSetup.F (fun _ => []) users e.Code = some (defaultAllErrorsHandler (fun _ => [])) := by
      intro e he
      simp only [headErrors, List.mem_cons, List.not_mem_nil, or_false] at he
      rcases he with rfl | rfl | rfl | rfl | rfl | rfl | rfl | rfl <;> rfl
    rw [key e he] at hh
    cases hh
    exact ⟨_, _, _, rfl, default_readable _ e he⟩

end Indigo.Props
