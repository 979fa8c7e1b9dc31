/-
C105 What an error handler sees of a head which is refused.
-/
import Verif.Props.Rejected
import Verif.Proofs.FaultPath
import Verif.Props.ServeWitness

namespace Indigo.Props
open Indigo.Serve Indigo.Spec Indigo.Parser

section
variable {σ ρ : Type}

/-- **C105, of the parser (part).** However a head with a fault is cut into segments, the request object has all that is said before the line with the first fault, and nothing else, when
it is refused (`ReadSoFar`). Missing: heads with CR or LF in the names of headers, see `C105_segments_violation` (for too long request lines, see `C105_long_line_parser`). -/
theorem C105_parser_partial (F : Fold) (p : PState) (hp : Ready p) (hr : Cleared p.req) (segs : List Bytes) (e : Status.HTTPError)
    (fits : RequestLineFits (limits p).line segs.flatten) (clean : CleanStream segs.flatten) (fault : HeadFault (limits p) segs.flatten e) :
    (feed F p segs).2.1 = .error e ∧ ReadSoFar F (limits p) p.cfg.maxEncodingTokens segs.flatten e (feed F p segs).1.req := by
  obtain ⟨p', rest, h⟩ := feed_fault F p hp segs fits clean fault
  exact ⟨by rw [h], feed_read F p hp hr segs fits clean fault⟩

/-- **C105, of the parser.** However a head without a faultless request line is cut into segments: if it is not for its version that it is refused, the path and the version of the request object are left as they were (so that
the path is the one of the earlier request, see `C76_stale_path_violation`, and no part of the line); and if it is, the path and the query are the ones the line names, whatever they have been, and the version is the unknown one. -/
theorem C105_request_line_parser (F : Fold) (p : PState) (hp : Ready p) (segs : List Bytes) (e : Status.HTTPError)
    (fits : RequestLineFits (limits p).line segs.flatten) (clean : CleanStream segs.flatten) (fault : HeadFault (limits p) segs.flatten e)
    (bad : NoFirstLine (limits p) segs.flatten) :
    (e ≠ Status.ErrUnsupportedProtocol → (feed F p segs).1.req.Path = p.req.Path ∧ (feed F p segs).1.req.Proto = p.req.Proto) ∧
    (e = Status.ErrUnsupportedProtocol → ∀ k target query version rest,
      segs.flatten = methodName k ++ 32 :: (target ++ queryPart query ++ 32 :: (version ++ 10 :: rest)) → k ≠ .Unknown → 63 ∉ target → 32 ∉ version →
      10 ∉ target ++ queryPart query ++ 32 :: version →
      Unescapes target (feed F p segs).1.req.Path ∧ (feed F p segs).1.req.Query.raw = query.getD p.req.Query.raw ∧
        (feed F p segs).1.req.Proto = Proto.Unknown) := by
  rw [feed_left F p hp segs fits clean fault]
  obtain ⟨h1, h2⟩ := exec_left F hp fault bad
  exact ⟨h1, fun he k target query version rest a b c d f => h2 k target query version rest a b c d f he⟩

/-- A request line with a version the server does not know. -/
def oldFashioned : Bytes := b!"PUT /a%41?q=1 HTTP/9.9\r\n"

/-- C105: the error handler is to see the path and the query of such a line. -/
example : Ready exParser ∧ RequestLineFits (limits exParser).line oldFashioned ∧ CleanStream oldFashioned ∧
    HeadFault (limits exParser) oldFashioned Status.ErrUnsupportedProtocol ∧ NoFirstLine (limits exParser) oldFashioned ∧
    ((feed Fold.ascii exParser [oldFashioned.take 7, oldFashioned.drop 7]).1.req.Path, (feed Fold.ascii exParser [oldFashioned.take 7, oldFashioned.drop 7]).1.req.Query.raw) =
      (b!"/aA", b!"q=1") := by
  have e1 : oldFashioned = b!"PUT" ++ 32 :: (b!"/a%41?q=1 HTTP/9.9\r" ++ 10 :: []) := rfl
  have key : ∀ m line rest : Bytes, oldFashioned = m ++ 32 :: (line ++ 10 :: rest) → 32 ∉ m → 10 ∉ line →
      m = b!"PUT" ∧ line = b!"/a%41?q=1 HTTP/9.9\r" ∧ rest = [] := by
    intro m line rest e h1 h2
    obtain ⟨a1, a2⟩ := Parser.cut_unique (e.symm.trans e1) h1 (by decide)
    obtain ⟨a3, a4⟩ := Parser.cut_unique a2 h2 (by decide)
    exact ⟨a1, a3, a4⟩
  have fault : LineFault (methodName .PUT) b!"/a%41?q=1 HTTP/9.9\r" Status.ErrUnsupportedProtocol :=
    .badVersion .PUT b!"/a%41" (some b!"q=1") b!"HTTP/9.9" true (by decide) (by decide) (by decide) (.lit (by decide) (.lit (by decide) (.esc .nil))) (by decide)
      (by decide) (by
        rintro ⟨p, sep, ⟨h, _⟩ | ⟨h, _⟩ | ⟨h, _⟩⟩ <;>
          exact absurd (congrArg (fun x => x.getD 5 0) h) (by simp))
  refine ⟨ready_new _ _ _ _, ⟨by decide +kernel, ?_, ?_⟩, ?_, .line b!"PUT" _ [] _ (by decide) (by decide) (by decide +kernel) fault,
    noFirstLine_fault (by decide) (by decide) fault, by decide +kernel⟩
  · intro m line e h1 h2
    obtain ⟨_, a2⟩ := Parser.cut_unique (e.symm.trans e1) h1 (by decide)
    rw [a2] at h2; exact absurd h2 (by decide)
  · intro m line rest e h1 h2
    obtain ⟨rfl, rfl, _⟩ := key m line rest e h1 h2
    decide +kernel
  · intro m line rest e h1 h2
    obtain ⟨_, _, rfl⟩ := key m line rest e h1 h2
    exact .none

/-- **C105, of the parser.** However a head with a too long request line is cut into segments, nothing of the request object is changed by it but the method. -/
theorem C105_long_line_parser (F : Fold) (p : PState) (hp : Ready p) (segs : List Bytes)
    (limit : 7 ≤ (limits p).line) (long : LongLine (limits p).line segs.flatten) :
    (∃ e ∈ longErrors, (feed F p segs).2.1 = .error e) ∧ ∃ m, (feed F p segs).1.req = { p.req with Method := m } :=
  method_long F segs p hp.state hp.startLine.2 limit (by simp [hp.startLine.1]) (by simp [hp.startLine.1])
    (by rw [hp.startLine.1]; exact long)

private theorem conversation_errors {E : Setup σ ρ} {maxTokens remote tail post End} {P : Visit σ → Prop} {W : Ended → List (Visit σ) → Prop}
    (request : ∀ seen world a left, P (.request seen world a left)) (close : ∀ seen a left, P (.error seen closeError a left))
    (more : ∀ v vs why, W why vs → W why (v :: vs)) (early : ∀ why vs, why ≠ .rejected → W why vs)
    (last : ∀ {env st d pre ws vs frames why}, End env st d pre ws vs frames why → (∀ v ∈ vs, P v) ∧ W why vs) {env st d pre ws ss vs frames why}
    (h : Conversation E maxTokens remote tail post End env st d pre ws ss vs frames why) : (∀ v ∈ vs, P v) ∧ W why vs := by
  induction h with
  | done h => exact last h
  | panicked => exact ⟨fun v hv => by cases List.mem_singleton.1 hv; exact request _ _ _ _, early _ _ nofun⟩
  | hijacked => exact ⟨fun v hv => by cases List.mem_singleton.1 hv; exact request _ _ _ _, early _ _ nofun⟩
  | broken => exact ⟨fun v hv => by cases List.mem_singleton.1 hv; exact request _ _ _ _, early _ _ nofun⟩
  | closed =>
    refine ⟨fun v hv => ?_, early _ _ (by split <;> nofun)⟩
    rcases List.mem_cons.1 hv with rfl | hv
    · exact request _ _ _ _
    · cases List.mem_singleton.1 hv; exact close _ _ _
  | next _ _ _ _ _ _ ih =>
    refine ⟨fun v hv => ?_, more _ _ _ ih.2⟩
    rcases List.mem_cons.1 hv with rfl | hv
    · exact request _ _ _ _
    · exact ih.1 v hv

/-- **C105 (part).** On a new connection come any well-formed requests, and then a head with a fault. If an error handler is called with any other error than that the connection is being closed, then with
the error for this fault; and what it is given is all that the head says before the line with the fault, and nothing else: there are no headers of the earlier requests, and none from the
line with the fault (but for the content length) or from what comes after it. (If it is the request line which has the fault, the path may well be the one of an earlier request, see `C76_stale_path_violation`.) The handler is called, unless the conversation ends before. Missing: heads with CR or LF in the names of headers, see `C105_segments_violation` (for too long request lines, see `C105_long_line`). -/
theorem C105_error_handler_partial (E : Setup σ ρ) (dec : DecodesChunked E.P) (cfg : Config)
    (size : cfg.bodyMaxSize < 2 ^ 64) (enc : EncToken) (remote : Bytes) (st : ρ) (tame : Tame E st) (cl : Client) (quiet : Quiet cl)
    (post : List (Bytes × Option GoErr)) (ss : List Sending) (ok : ∀ s ∈ ss, SendableWith E.F cfg s)
    (bad : Bytes) (e : Status.HTTPError) (fits : RequestLineFits (headLimits cfg).line bad) (clean : CleanStream bad)
    (fault : HeadFault (headLimits cfg) bad e) (stream : cl.stream = ss.flatMap Sending.bytes ++ bad) :
    ∃ c why, serve E (newConn E.P cfg enc remote st (followedBy cl post)) = (c, some why) ∧
      (∀ seen err ans left, Visit.error seen err ans left ∈ c.visits → err ≠ closeError →
        err = .http e ∧ ReadSoFar E.F (headLimits cfg) cfg.maxEncodingTokens.toNat bad e seen ∧
        (∀ m, NamesMethod bad m → seen.Method = m) ∧ seen.Remote = remote ∧ seen.Params.pairs = [] ∧ seen.Ctx = []) ∧
      (why = .rejected → ∃ seen ans left, c.visits.getLast? = some (.error seen (.http e) ans left)) := by
  obtain ⟨c, why, vs, frames, h1, h2, -, h4⟩ := C32_malformed_partial E dec cfg size enc remote st tame cl quiet post ss ok bad e fits clean fault stream
  obtain ⟨k1, k2⟩ := conversation_errors
    (P := fun v => ∀ seen err ans left, v = Visit.error seen err ans left → err ≠ closeError →
        err = .http e ∧ ReadSoFar E.F (headLimits cfg) cfg.maxEncodingTokens.toNat bad e seen ∧
        (∀ m, NamesMethod bad m → seen.Method = m) ∧ seen.Remote = remote ∧ seen.Params.pairs = [] ∧ seen.Ctx = [])
    (W := fun why vs => why = .rejected → ∃ seen ans left, vs.getLast? = some (.error seen (.http e) ans left))
    (fun _ _ _ _ _ _ _ _ h => by cases h) (fun _ _ _ _ _ _ _ h hne => by cases h; exact absurd rfl hne)
    (fun v vs why hw hr => by
      obtain ⟨seen, ans, left, h⟩ := hw hr
      refine ⟨seen, ans, left, ?_⟩
      rw [List.getLast?_cons, h]; rfl)
    (fun _ _ h h' => absurd h' h)
    (by
      rintro env st d pre ws vs frames why ⟨seen, ans, left, more, hat, -, -, rfl, -⟩
      refine ⟨fun v hv seen' err ans' left' hv' _ => ?_, fun _ => ⟨seen, ans, left, rfl⟩⟩
      cases List.mem_singleton.1 hv
      cases hv'
      exact ⟨rfl, hat.read fits clean fault, hat.method (fault_not_long fault), hat.remote, hat.params, hat.ctx⟩) h4
  refine ⟨c, why, h1, ?_, ?_⟩
  · intro seen err ans left hv hne
    rw [h2] at hv
    exact k1 _ hv seen err ans left rfl hne
  · rw [h2]; exact k2

/-- **C105.** The same for a too long request line, wherever it is too long, and whatever comes in it and after it: there are no headers and there is no query, neither of its own nor of an earlier request; and the
method, if the line names one and is not refused already as too long for it, is the one it names. -/
theorem C105_long_line (E : Setup σ ρ) (dec : DecodesChunked E.P) (cfg : Config)
    (size : cfg.bodyMaxSize < 2 ^ 64) (enc : EncToken) (remote : Bytes) (st : ρ) (tame : Tame E st) (cl : Client) (quiet : Quiet cl)
    (post : List (Bytes × Option GoErr)) (ss : List Sending) (ok : ∀ s ∈ ss, SendableWith E.F cfg s)
    (bad : Bytes) (limit : 7 ≤ (headLimits cfg).line) (long : LongLine (headLimits cfg).line bad) (stream : cl.stream = ss.flatMap Sending.bytes ++ bad) :
    ∃ c why, serve E (newConn E.P cfg enc remote st (followedBy cl post)) = (c, some why) ∧
      (∀ seen err ans left, Visit.error seen err ans left ∈ c.visits → err ≠ closeError →
        ∃ e ∈ longErrors, err = .http e ∧ NoHeaders seen ∧ seen.Query.raw = [] ∧ seen.Query.params.pairs = [] ∧
        (e ≠ Status.ErrTooLongRequestLine → ∀ m, NamesMethod bad m → seen.Method = m) ∧
        seen.Remote = remote ∧ seen.Params.pairs = [] ∧ seen.Ctx = []) ∧
      (why = .rejected → ∃ e ∈ longErrors, ∃ seen ans left, c.visits.getLast? = some (.error seen (.http e) ans left)) := by
  obtain ⟨c, why, vs, frames, h1, h2, -, h4⟩ := C05_long_line_connection E dec cfg size enc remote st tame cl quiet post ss ok bad limit long stream
  obtain ⟨k1, k2⟩ := conversation_errors
    (P := fun v => ∀ seen err ans left, v = Visit.error seen err ans left → err ≠ closeError →
        ∃ e ∈ longErrors, err = .http e ∧ NoHeaders seen ∧ seen.Query.raw = [] ∧ seen.Query.params.pairs = [] ∧
        (e ≠ Status.ErrTooLongRequestLine → ∀ m, NamesMethod bad m → seen.Method = m) ∧
        seen.Remote = remote ∧ seen.Params.pairs = [] ∧ seen.Ctx = [])
    (W := fun why vs => why = .rejected → ∃ e ∈ longErrors, ∃ seen ans left, vs.getLast? = some (.error seen (.http e) ans left))
    (fun _ _ _ _ _ _ _ _ h => by cases h) (fun _ _ _ _ _ _ _ h hne => by cases h; exact absurd rfl hne)
    (fun v vs why hw hr => by
      obtain ⟨e, he, seen, ans, left, h⟩ := hw hr
      refine ⟨e, he, seen, ans, left, ?_⟩
      rw [List.getLast?_cons, h]; rfl)
    (fun _ _ h h' => absurd h' h)
    (by
      rintro env st d pre ws vs frames why ⟨e, he, seen, ans, left, more, hat, -, -, rfl, -⟩
      refine ⟨fun v hv seen' err ans' left' hv' _ => ?_, fun _ => ⟨e, he, seen, ans, left, rfl⟩⟩
      cases List.mem_singleton.1 hv
      cases hv'
      obtain ⟨l1, l2, l3⟩ := hat.long limit long
      exact ⟨e, he, rfl, l1, l2, l3, hat.method, hat.remote, hat.params, hat.ctx⟩) h4
  refine ⟨c, why, h1, ?_, ?_⟩
  · intro seen err ans left hv hne
    rw [h2] at hv
    exact k1 _ hv seen err ans left rfl hne
  · rw [h2]; exact k2

end

/-- A head with a fault in its third header line. -/
def sized7x : Bytes := b!"GET /c HTTP/1.1\r\nHost: a\r\nX: y\r\nContent-Length: 7x\r\nZ: z\r\n\r\n"

theorem sized7x_fits : RequestLineFits (headLimits Config.default).line sized7x ∧ CleanStream sized7x := by
  have e1 : sized7x = b!"GET" ++ 32 :: (b!"/c HTTP/1.1\r" ++ 10 :: b!"Host: a\r\nX: y\r\nContent-Length: 7x\r\nZ: z\r\n\r\n") := rfl
  have key : ∀ m line rest : Bytes, sized7x = m ++ 32 :: (line ++ 10 :: rest) → 32 ∉ m → 10 ∉ line →
      m = b!"GET" ∧ line = b!"/c HTTP/1.1\r" ∧ rest = b!"Host: a\r\nX: y\r\nContent-Length: 7x\r\nZ: z\r\n\r\n" := by
    intro m line rest e h1 h2
    obtain ⟨a1, a2⟩ := Parser.cut_unique (e.symm.trans e1) h1 (by decide)
    obtain ⟨a3, a4⟩ := Parser.cut_unique a2 h2 (by decide)
    exact ⟨a1, a3, a4⟩
  refine ⟨⟨by decide +kernel, ?_, ?_⟩, ?_⟩
  · intro m line e h1 h2
    obtain ⟨_, a2⟩ := Parser.cut_unique (e.symm.trans e1) h1 (by decide)
    rw [a2] at h2; exact absurd h2 (by decide)
  · intro m line rest e h1 h2
    obtain ⟨rfl, rfl, _⟩ := key m line rest e h1 h2
    decide +kernel
  · intro m line rest e h1 h2
    obtain ⟨_, _, rfl⟩ := key m line rest e h1 h2
    exact .field b!"Host" b!" a\r" _ (by decide) (by decide) (by decide) (by decide)
      (.field b!"X" b!" y\r" _ (by decide) (by decide) (by decide) (by decide)
        (.field b!"Content-Length" b!" 7x\r" _ (by decide) (by decide) (by decide) (by decide)
          (.field b!"Z" b!" z\r" _ (by decide) (by decide) (by decide) (by decide) (.endCR _))))

/-- The head of `sized7x` without its fields. -/
def headC : Head := { method := .GET, target := b!"/c", query := none, version := b!"HTTP/1.1", crlf := true, fields := [], lastCrlf := true }

theorem headC_ok : headC.OK :=
  ⟨by decide, by decide, by simp [headC], ⟨⟨_, 46, .inr (.inl ⟨rfl, rfl⟩)⟩, by decide, by decide⟩, by simp [headC]⟩

theorem sized7x_fault : HeadFault (headLimits Config.default) sized7x Status.ErrBadRequest :=
  .fields headC _ _ headC_ok (.lit (by decide) (.lit (by decide) .nil)) (by decide +kernel)
    (.next ⟨b!"Host", 1, b!"a", true⟩ _ _ ⟨by decide, by decide, by decide, by decide, by decide, by decide⟩ (by decide)
      (by decide) (by decide +kernel) (by decide +kernel) (by decide +kernel)
      (.next ⟨b!"X", 1, b!"y", true⟩ _ _ ⟨by decide, by decide, by decide, by decide, by decide, by decide⟩ (by decide)
        (by decide) (by decide +kernel) (by decide +kernel) (by decide +kernel)
        (.length b!"Content-Length" b!" 7" 120 b!"\r\nZ: z\r\n\r\n" (by decide) (by decide) (by decide) (by decide +kernel)
          (by decide +kernel) (by decide) (by decide) (by decide) (by decide) (by decide) (by decide))))

/-- C105: a request, and then a head with a fault in its third header line. The error handler sees the two lines before it, and nothing of the request, nor of the line after the fault. -/
example : SendableWith simple.F Config.default posted ∧ HeadFault (headLimits Config.default) sized7x Status.ErrBadRequest ∧
    RequestLineFits (headLimits Config.default).line sized7x ∧ CleanStream sized7x ∧ Tame simple ⟨report, reportError⟩ ∧
    ∃ cl : Client, Quiet cl ∧ cl.stream = [posted].flatMap Sending.bytes ++ sized7x ∧
    (serve simple (newConn simple.P Config.default 0 b!"1.2.3.4" ⟨report, reportError⟩ (followedBy cl []))).1.visits.getLast?.map
      (fun v => match v with
        | .error seen err _ _ => (seen.Path, seen.Headers.pairs.map (fun p => (p.Key, p.Value)), seen.ContentLength, err)
        | _ => ([], [], 0, closeError)) =
    some (b!"/c", [(b!"Host", b!"a"), (b!"X", b!"y")], 7, .http Status.ErrBadRequest) := by
  refine ⟨posted_ok, sized7x_fault, sized7x_fits.1, sized7x_fits.2, report_tame,
    arrive [posted.bytes, sized7x.take 27, sized7x.drop 27], ?_, by decide +kernel, by decide +kernel⟩
  unfold Quiet; decide +kernel

/-- A server which takes request lines of at most thirty-two bytes. -/
def narrowLine : Config := { Config.default with urlBufferDefault := 16, urlBufferMaximal := 32 }

/-- A request line which is too long for it. -/
def tooWide : Bytes := b!"PUT /1234567890?a=1234567890&b=1234567890 HTTP/1.1\r\nA: b\r\n\r\n"

theorem posted_narrowLine : SendableWith Fold.ascii narrowLine posted where
  ok := posted_ok.ok
  clean := posted_ok.clean
  noBareEmpty := posted_ok.noBareEmpty
  fits := ⟨by decide +kernel, by decide +kernel, by decide +kernel, by decide +kernel, by decide +kernel⟩
  path := posted_ok.path
  framed := .sized (by decide +kernel) rfl (by decide)
  body := by decide +kernel

set_option synthInstance.maxSize 2000 in
/-- C105: a request, and then a too long request line. The error handler sees neither the headers of the request nor anything of the line but the method (the path is the one of the request). -/
example : SendableWith simple.F narrowLine posted ∧ 7 ≤ (headLimits narrowLine).line ∧ LongLine (headLimits narrowLine).line tooWide ∧ NamesMethod tooWide .PUT ∧
    Tame simple ⟨report, reportError⟩ ∧
    ∃ cl : Client, Quiet cl ∧ cl.stream = [posted].flatMap Sending.bytes ++ tooWide ∧
    (serve simple (newConn simple.P narrowLine 0 b!"1.2.3.4" ⟨report, reportError⟩ (followedBy cl []))).1.visits.getLast?.map
      (fun v => match v with
        | .error seen err _ _ => (methodName seen.Method, seen.Path, seen.Query.raw, seen.Headers.pairs.map (fun p => (p.Key, p.Value)), seen.ContentLength, err)
        | _ => ([], [], [], [], 0, closeError)) =
    some (b!"PUT", b!"/a", [], [], 0, .http Status.ErrURITooLong) := by
  refine ⟨posted_narrowLine, by decide, .inr ⟨b!"PUT", b!"/1234567890?a=1234567890&b=1234567890 HTTP/1.1\r\nA: b\r\n\r\n", rfl, by decide, by decide +kernel, by decide +kernel⟩,
    ⟨b!"PUT", _, rfl, by decide, by decide, .inl ⟨by decide, rfl⟩⟩, report_tame,
    arrive [posted.bytes, tooWide.take 27, tooWide.drop 27], ?_, by decide +kernel, by decide +kernel⟩
  unfold Quiet; decide +kernel

/-- A head with a line without colon, and with a fault after it. -/
def uncoloned : Bytes := b!"GET /c HTTP/1.1\r\nA: b\r\nno colon\r\nB: c\r\nContent-Length: 7x\r\n\r\n"

set_option maxRecDepth 200000 in
/-- C105 is false of heads with a line without colon: what the error handler sees depends on how the client cuts the head into segments. In one piece, such a line becomes part of the name of the next header, and
the error is the one for the bad length; cut before the end of the line, the line is the end of a request, which is answered, and what comes next is taken for a request with an unknown method. -/
theorem C105_segments_violation : ∃ cl₁ cl₂ : Client, Quiet cl₁ ∧ Quiet cl₂ ∧ cl₁.stream = uncoloned ∧ cl₂.stream = uncoloned ∧ Tame simple ⟨report, reportError⟩ ∧
    (serve simple (newConn simple.P Config.default 0 b!"1.2.3.4" ⟨report, reportError⟩ (followedBy cl₁ []))).1.visits.map
      (fun v => match v with
        | .error seen err _ _ => (seen.Headers.pairs.map (fun p => (p.Key, p.Value)), some err)
        | .request seen _ _ _ => (seen.Headers.pairs.map (fun p => (p.Key, p.Value)), none)) =
      [([(b!"A", b!"b"), (b!"no colon\r\nB", b!"c")], some (.http Status.ErrBadRequest))] ∧
    (serve simple (newConn simple.P Config.default 0 b!"1.2.3.4" ⟨report, reportError⟩ (followedBy cl₂ []))).1.visits.map
      (fun v => match v with
        | .error seen err _ _ => (seen.Headers.pairs.map (fun p => (p.Key, p.Value)), some err)
        | .request seen _ _ _ => (seen.Headers.pairs.map (fun p => (p.Key, p.Value)), none)) =
      [([(b!"A", b!"b")], none), ([], some (.http Status.ErrMethodNotImplemented))] := by
  refine ⟨arrive [uncoloned], arrive [uncoloned.take 31, uncoloned.drop 31], ?_, ?_, by decide +kernel, by decide +kernel, report_tame, by decide +kernel, by decide +kernel⟩ <;>
    (unfold Quiet; decide +kernel)

end Indigo.Props
