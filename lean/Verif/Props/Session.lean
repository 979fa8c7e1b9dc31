/-
C107: whatever comes on a connection.
-/
import Verif.Props.Every
import Verif.Proofs.Session

namespace Indigo.Props
open Indigo.Serve Indigo.Spec Indigo.Serializer
variable {σ ρ : Type}

theorem requestsOf_append (a b : List (Visit σ)) : requestsOf (a ++ b) = requestsOf a ++ requestsOf b := by
  simp [requestsOf]

theorem routerAfter_snoc (E : Setup σ ρ) (st : ρ) (history : List Request) (r : Request) :
    routerAfter E st (history ++ [r]) = (E.router.onRequest (routerAfter E st history) r).2 := by
  simp [routerAfter]

theorem session_calls {E : Setup σ ρ} {old st d pre ws vs frames why} (h : Session E old st d pre ws vs frames why) :
    ∀ (st0 : ρ) (before : List (Visit σ)), st = routerAfter E st0 (requestsOf before) → ∀ (i : Nat) (v : Visit σ), vs[i]? = some v →
      Happened E st0 (before ++ vs.take i) v ∧
      (i + 1 < vs.length → ∃ seen world answer left, v = .request seen world (some answer) left ∧ left.hijacked = false) := by
  have one : ∀ {vs : List (Visit σ)} {v0 : Visit σ} (st0 : ρ) (before : List (Visit σ)), vs = [v0] → Happened E st0 before v0 →
      ∀ (i : Nat) (v : Visit σ), vs[i]? = some v → Happened E st0 (before ++ vs.take i) v ∧
      (i + 1 < vs.length → ∃ seen world answer left, v = .request seen world (some answer) left ∧ left.hijacked = false) := by
    intro vs v0 st0 before hvs hv i v hi
    subst hvs
    cases i with
    | zero =>
      simp at hi
      subst hi
      exact ⟨by simpa using hv, by simp⟩
    | succ i => simp at hi
  induction h with
  | crashed => intro st0 before _ i v hi; simp at hi
  | silent h1 => intro st0 before hst; subst hst; exact one st0 before rfl ⟨.inl rfl, h1⟩
  | refusedPanic he h1 => intro st0 before hst; subst hst; exact one st0 before rfl ⟨.inr ⟨_, he, rfl⟩, h1⟩
  | refused he _ h1 => intro st0 before hst; subst hst; exact one st0 before rfl ⟨.inr ⟨_, he, rfl⟩, h1⟩
  | panicked hs ha => intro st0 before hst; subst hst; exact one st0 before rfl ⟨hs.hijacked, hs.version, hs.path, hs.method, ha⟩
  | hijacked hs ha => intro st0 before hst; subst hst; exact one st0 before rfl ⟨hs.hijacked, hs.version, hs.path, hs.method, ha⟩
  | broken hs ha => intro st0 before hst; subst hst; exact one st0 before rfl ⟨hs.hijacked, hs.version, hs.path, hs.method, ha⟩
  | @closed _ _ _ _ _ seen world f req left _ seen' ans left' _ _ hs ha hh _ _ ht =>
    intro st0 before hst i v hi
    subst hst
    cases i with
    | zero =>
      simp at hi
      subst hi
      exact ⟨by simpa using ⟨hs.hijacked, hs.version, hs.path, hs.method, ha⟩, fun _ => ⟨_, _, _, _, rfl, hh⟩⟩
    | succ i =>
      cases i with
      | zero =>
        simp at hi
        subst hi
        refine ⟨⟨.inl rfl, ?_⟩, by simp⟩
        have : requestsOf (before ++ [Visit.request seen world (some (f, req)) left, Visit.error seen' closeError ans left'].take (0 + 1)) = requestsOf before ++ [seen] := by
          simp [requestsOf]
        rw [this, routerAfter_snoc]
        exact ht
      | succ i => simp at hi
  | @next _ _ _ _ _ seen world f req left w vs _ _ hs ha hh _ _ _ ih =>
    intro st0 before hst i v hi
    subst hst
    cases i with
    | zero =>
      simp at hi
      subst hi
      exact ⟨by simpa using ⟨hs.hijacked, hs.version, hs.path, hs.method, ha⟩, fun _ => ⟨_, _, _, _, rfl, hh⟩⟩
    | succ i =>
      have := ih st0 (before ++ [Visit.request seen world (some (f, req)) left]) (by
        rw [requestsOf_append, show requestsOf [Visit.request seen world (some (f, req)) left] = [seen] from rfl, routerAfter_snoc]) i v (by simpa using hi)
      simpa using this

theorem newConn_live (E : Setup σ ρ) (cfg : Config) (enc : EncToken) (remote : Bytes) (st : ρ) (cl : Client) : Live (newConn E.P cfg enc remote st cl) where
  at_ := ⟨fun _ => rfl, fun h => absurd rfl h, by show Parser.Known Proto.Unknown; unfold Parser.Known; decide, nofun⟩
  hijacked := rfl

theorem serve_newConn_session (E : Setup σ ρ) (cfg : Config) (enc : EncToken) (remote : Bytes) (st : ρ) (cl : Client) :
    ∃ why vs frames, (serve E (newConn E.P cfg enc remote st cl)).2 = some why ∧ (serve E (newConn E.P cfg enc remote st cl)).1.visits = vs ∧
      (serve E (newConn E.P cfg enc remote st cl)).1.client.written = cl.written ++ frames ∧
      Session E (newConn E.P cfg enc remote st cl).req st (Serializer.new cfg.responseBuffSize (cfg.defaultHeaders.getD [])) Fields.new cl.wscript vs frames why := by
  obtain ⟨why, hw⟩ := serve_ends E (newConn E.P cfg enc remote st cl)
  obtain ⟨vs, frames, h1, h2, h3⟩ := serve_session E _ _ (serve E (newConn E.P cfg enc remote st cl)).1 why (newConn_live E cfg enc remote st cl) (Prod.ext rfl hw)
  exact ⟨why, vs, frames, hw, by rw [h1]; rfl, h2, h3⟩

/-- **C107.** Whatever comes on a connection, in whatever pieces, with whatever errors of reading and writing, and whatever the handlers do: the router is called with one request after another, each of them in a version the server supports, with a method it knows and a path which is not empty;
each call finds the router in the state the requests before have left it in. Every call but the last is one with a request, which is answered without panic and without hijacking the connection. So a
call with an error is the last one, and the error is the one by which the connection is closed or one for a head which is refused; and after a panic or the hijacking of the connection the router is not called any more. -/
theorem C107_calls (E : Setup σ ρ) (cfg : Config) (enc : EncToken) (remote : Bytes) (st : ρ) (cl : Client) :
    let calls := (serve E (newConn E.P cfg enc remote st cl)).1.visits
    ∀ (i : Nat) (v : Visit σ), calls[i]? = some v → Happened E st (calls.take i) v ∧
      (i + 1 < calls.length → ∃ seen world answer left, v = .request seen world (some answer) left ∧ left.hijacked = false) := by
  obtain ⟨why, vs, frames, -, h2, -, h4⟩ := serve_newConn_session E cfg enc remote st cl
  dsimp only
  rw [h2]
  exact session_calls h4 st [] rfl

theorem session_read {E : Setup σ ρ} {n : Int} {defs : List (Bytes × Bytes)} (hd : DefaultsOK E.F defs) (hn : n < 16 ^ 8)
    {old st d pre ws vs frames why} (h : Session E old st d pre ws vs frames why) :
    ∀ earlier st0 past, st = routerAfter E st0 past → Told101 past pre → Serializer.Ready E.F n defs earlier d → NoWriteError { wscript := ws } →
      Steady E defs st0 → Parser.Versioned old →
      ∃ calls last frames1 frames2 msgs, vs = calls ++ last ∧ frames = frames1 ++ frames2 ∧ msgs.length = calls.length ∧
        (∀ ms more l, readAnswers ms more = some l →
          readAnswers ((requestsOf calls).map Request.Method ++ ms) (frames1.flatten ++ more) = some (msgs ++ l)) ∧
        (∀ (i : Nat) (v : Visit σ) (a : Option Msg × Msg), calls[i]? = some v → msgs[i]? = some a → ∃ seen world f req left,
          v = .request seen world (some (f, req)) left ∧ AnswerOf defs (past ++ requestsOf (calls.take i)) seen f a) ∧
        ((last = [] ∧ frames2 = [] ∧ why = .panicked) ∨
         (∃ seen ans left, last = [.error seen closeError (some ans) left] ∧ frames2 = [] ∧ why ∈ [Ended.readFailed, .writeFailed, .clearFailed]) ∨
         (∃ seen e f req left, e ∈ headErrors ∧ last = [.error seen (.http e) (some (f, req)) left] ∧ (e ≠ Status.ErrUnsupportedProtocol → why = .rejected ∧
          ∃ m, readAnswers [seen.Method] frames2.flatten = some [(none, m)] ∧ ExcuseOf defs seen f m))) := by
  induction h with
  | crashed =>
    intro earlier st0 past hst hp hr hws steady hv
    exact ⟨[], [], [], [], [], rfl, rfl, rfl, fun ms more l h => by simpa [requestsOf] using h, by simp, .inl ⟨rfl, rfl, rfl⟩⟩
  | @silent _ _ _ _ _ seen ans left frames ht hf =>
    intro earlier st0 past hst hp hr hws steady hv
    obtain ⟨world, hw, ht⟩ := ht
    obtain ⟨f, req, left', s1, s2, -⟩ := steady.error past seen closeError world (.inl rfl) hw
    rw [← hst, ht] at s1
    cases s1
    exact ⟨[], _, [], frames, [], rfl, rfl, rfl, fun ms more l h => by simpa [requestsOf] using h, by simp, .inr (.inl ⟨_, _, _, rfl, hf s2, by simp⟩)⟩
  | @refusedPanic _ _ _ _ _ seen e left more he ht =>
    intro earlier st0 past hst hp hr hws steady hv
    obtain ⟨world, hw, ht⟩ := ht
    obtain ⟨f, req, left', s1, s2, -⟩ := steady.error past seen (.http e) world (.inr ⟨e, he, rfl⟩) hw
    rw [← hst, ht] at s1
    cases s1
  | @refused _ _ d _ ws seen e f req left more w he hver ht hm hw =>
    intro earlier st0 past hst hp hr hws steady hv
    obtain ⟨world, hw', ht⟩ := ht
    obtain ⟨f', req', left', s1, s2, s3, s4, s5⟩ := steady.error past seen (.http e) world (.inr ⟨e, he, rfl⟩) hw'
    rw [← hst, ht] at s1
    cases s1
    obtain ⟨hmore, hscript⟩ := hm s2
    refine ⟨[], _, [], _, [], rfl, rfl, rfl, fun ms more l h => by simpa [requestsOf] using h, by simp,
      .inr (.inr ⟨_, e, _, _, _, he, rfl, fun hne => ?_⟩)⟩
    obtain ⟨v, hv'⟩ := hver hne hv
    rw [hscript, s5] at hw
    obtain ⟨text, msg, k1, -, k3, -, k5, k6, k7, k8, k9⟩ := readReply_always E.F hd hn hr hv' req (s3 ⟨e, he, rfl⟩) { wscript := ws } hws
    rw [← hw] at k1 k3
    refine ⟨by simp [k3], msg, ?_, by rw [k6]; exact hv', k7, by rw [k8, s4], k9⟩
    have hfin : 200 ≤ msg.code := by rw [k7]; exact (s3 ⟨e, he, rfl⟩).final
    have k5' := k5 []
    rw [List.append_nil, s4] at k5'
    rw [hmore, k1]
    simp [readAnswers, readAnswer, k5', hfin]
  | @panicked _ _ _ _ _ seen world left _ hs ha =>
    intro earlier st0 past hst hp hr hws steady hv
    obtain ⟨f, req, left', s1, -⟩ := steady.request past seen world hs.version hs.path hs.method
    unfold Answers at s1 ha
    rw [← hst, ha] at s1
    cases s1
  | @hijacked _ _ _ _ _ seen world _ left _ hs ha hh =>
    intro earlier st0 past hst hp hr hws steady hv
    obtain ⟨f, req, left', s1, s2, -⟩ := steady.request past seen world hs.version hs.path hs.method
    unfold Answers at s1 ha
    rw [← hst, ha] at s1
    cases s1
    rw [s2] at hh; cases hh
  | @broken _ _ d pre ws seen world f req left w hs ha hh hw hout =>
    intro earlier st0 past hst hp hr hws steady hv
    obtain ⟨f', req', left', s1, s2, s3, -⟩ := steady.request past seen world hs.version hs.path hs.method
    unfold Answers at s1 ha
    rw [← hst, ha] at s1
    cases s1
    obtain ⟨v, hv⟩ := hs.version
    obtain ⟨_, _, _, _, k, _⟩ := readAnswer_opened E.F hd hn hr hp hv req s3 { wscript := ws } hws hw
    exact absurd hout k
  | @closed _ _ d pre ws seen world f req left w seen' ans left' more why hs ha hh hw hout ht hm hwhy =>
    intro earlier st0 past hst hp hr hws steady hv
    obtain ⟨f', req', left1, s1, s2, s3, s4, s5⟩ := steady.request past seen world hs.version hs.path hs.method
    have ha0 := ha
    unfold Answers at s1 ha
    rw [← hst, ha] at s1
    cases s1
    obtain ⟨v, hv⟩ := hs.version
    obtain ⟨text, a, k1, -, -, -, k2, k3, k4, k5, k6, k7, -⟩ := readAnswer_opened E.F hd hn hr hp hv req s3 { wscript := ws } hws hw
    obtain ⟨world', hw', ht⟩ := ht
    obtain ⟨f2, req2, left2, t1, t2, -⟩ := steady.error (past ++ [seen]) seen' closeError world' (.inl rfl) hw'
    rw [routerAfter_snoc, ← hst, ht] at t1
    cases t1
    refine ⟨[.request seen world (some (f, req)) left], [.error seen' closeError (some (f2, req2)) left'], text, [], [a], rfl,
      by rw [k1, hm t2]; simp, rfl, ?_, ?_, .inr (.inl ⟨_, _, _, rfl, rfl, ?_⟩)⟩
    · intro ms more l hl
      rw [s4] at k2
      simp [requestsOf, readAnswers, k2, hl]
    · intro i v0 a0 hi ha0
      cases i with
      | zero =>
        simp at hi ha0
        subst hi ha0
        exact ⟨_, _, _, _, _, rfl, by simpa [requestsOf] using k3, k4, k5, by rw [k6, s4], k7⟩
      | succ i => simp at hi
    · simp only [Option.isSome_some, if_true, hwhy]
      split <;> simp
  | @next _ _ d pre ws seen world f req left w vs frames why hs ha hh hw hout _ ih =>
    intro earlier st0 past hst hp hr hws steady hv
    obtain ⟨f', req', left1, s1, s2, s3, s4, s5⟩ := steady.request past seen world hs.version hs.path hs.method
    unfold Answers at s1 ha
    rw [← hst, ha] at s1
    cases s1
    obtain ⟨v, hv⟩ := hs.version
    obtain ⟨text, a, k1, kw, -, -, k2, k3, k4, k5, k6, k7, earlier', hr'⟩ := readAnswer_opened E.F hd hn hr hp hv req s3 { wscript := ws } hws hw
    obtain ⟨calls, last, frames1, frames2, msgs, m0, m1, m2, m3, m4, m5⟩ := ih earlier' st0 (past ++ [seen]) (by rw [hst, routerAfter_snoc])
      (told_opening E.F d hp seen) hr' kw steady ⟨v, by rw [s5]; exact hv⟩
    refine ⟨.request seen world (some (f, req)) left :: calls, last, text ++ frames1, frames2, a :: msgs, by rw [m0]; rfl, by rw [k1, m1]; simp,
      by simp [m2], ?_, ?_, m5⟩
    · intro ms more l hl
      rw [s4] at k2
      have := m3 ms more l hl
      simp only [requestsOf, List.filterMap_cons, List.map_cons, List.cons_append, List.flatten_append, List.append_assoc, readAnswers, k2] at this ⊢
      rw [this]
      rfl
    · intro i v0 a0 hi ha0
      cases i with
      | zero =>
        simp at hi ha0
        subst hi ha0
        exact ⟨_, _, _, _, _, rfl, by simpa [requestsOf] using k3, k4, k5, by rw [k6, s4], k7⟩
      | succ i =>
        obtain ⟨seen', world', f', req', left', h1, h2⟩ := m4 i v0 a0 (by simpa using hi) (by simpa using ha0)
        refine ⟨seen', world', f', req', left', h1, ?_⟩
        simpa [requestsOf] using h2

/-- **C107.** Whatever comes on a connection, in whatever pieces, and with whatever errors of reading: if the handlers and the error handler answer with responses which say how long they are, and the writes succeed, then what the server writes is one answer
for each request the router was called with, in this order, which an independent reader splits correctly; and after them nothing, or the answer of the error handler to a head which is refused. It ends either with a
crash, without any more calls of the router; or the router is told that the connection is closed; or it is told why a head is refused. (A head refused for its version is answered without a version, see `C101_no_version_violation`.) -/
theorem C107_answers (E : Setup σ ρ) (cfg : Config) (defaults : DefaultsOK E.F (cfg.defaultHeaders.getD [])) (buffer : cfg.responseBuffSize < 16 ^ 8)
    (enc : EncToken) (remote : Bytes) (st : ρ) (steady : Steady E (cfg.defaultHeaders.getD []) st) (cl : Client) (writes : NoWriteError cl) :
    let r := serve E (newConn E.P cfg enc remote st cl)
    ∃ calls last frames1 frames2 msgs, r.1.visits = calls ++ last ∧ r.1.client.written = cl.written ++ frames1 ++ frames2 ∧ msgs.length = calls.length ∧
      (∀ ms more l, readAnswers ms more = some l →
        readAnswers ((requestsOf calls).map Request.Method ++ ms) (frames1.flatten ++ more) = some (msgs ++ l)) ∧
      (∀ (i : Nat) (v : Visit σ) (a : Option Msg × Msg), calls[i]? = some v → msgs[i]? = some a → ∃ seen world f req left,
        v = .request seen world (some (f, req)) left ∧ AnswerOf (cfg.defaultHeaders.getD []) (requestsOf (calls.take i)) seen f a) ∧
      ((last = [] ∧ frames2 = [] ∧ r.2 = some .panicked) ∨
       (∃ seen ans left, last = [.error seen closeError (some ans) left] ∧ frames2 = [] ∧ r.2 ∈ [some Ended.readFailed, some .writeFailed, some .clearFailed]) ∨
       (∃ seen e f req left, e ∈ headErrors ∧ last = [.error seen (.http e) (some (f, req)) left] ∧ (e ≠ Status.ErrUnsupportedProtocol → r.2 = some .rejected ∧
        ∃ m, readAnswers [seen.Method] frames2.flatten = some [(none, m)] ∧ ExcuseOf (cfg.defaultHeaders.getD []) seen f m))) := by
  obtain ⟨why, vs, frames, h1, h2, h3, h4⟩ := serve_newConn_session E cfg enc remote st cl
  have h0 : Serializer.Ready E.F cfg.responseBuffSize (cfg.defaultHeaders.getD []) []
      (Serializer.new cfg.responseBuffSize (cfg.defaultHeaders.getD [])) := by
    refine ⟨rfl, ?_, rfl, Or.inl rfl⟩
    simp [Serializer.new, processDefaultHeaders_eq, defaultsAfter]
  obtain ⟨calls, last, frames1, frames2, msgs, m0, m1, m2, m3, m4, m5⟩ := session_read (n := cfg.responseBuffSize) defaults buffer h4 [] st [] rfl ⟨rfl, rfl, rfl, rfl⟩ h0
    writes steady ⟨b!"HTTP/1.1", rfl⟩
  dsimp only
  rw [h1, h2, h3]
  refine ⟨calls, last, frames1, frames2, msgs, m0, by rw [m1, List.append_assoc], m2, m3, by simpa using m4, ?_⟩
  simpa using m5

/-! ### The hypotheses are met -/

theorem echo_steady : Steady simple (Config.default.defaultHeaders.getD []) ⟨echoPath, reportError⟩ where
  request history seen world _ _ _ := by
    rw [simple_state]
    exact ⟨_, _, _, rfl, rfl, report_plain _ _, rfl, rfl⟩
  error history seen e world _ hw := by
    rw [simple_state]
    refine ⟨_, _, _, rfl, hw, ?_, rfl, rfl⟩
    rintro ⟨h, hh, rfl⟩
    refine excuse_plain _ _ ?_
    revert h; decide

/-- Two requests, the first of which has a CR in the name of a header; then a head the version of which is a method, and reading fails. -/
def oddities : Client :=
  { conn := [(b!"GET /a HTTP/1.1\r\nx\r", none), (b!": 1\r\n\r\nHEAD /b HT", none), (b!"TP/1.0\r\nConnection: keep-alive\r\n\r\nGET /c GET\r", none), ([], some (.other 7))] }

/-- C107: the stream is outside of those of which C93 and C101 say more; both requests are answered, and the router is told that the connection is closed. -/
example : NoWriteError oddities ∧ ¬ CleanStream b!"GET /a HTTP/1.1\r\nx\r: 1\r\n\r\n" ∧
    (serve simple (newConn simple.P Config.default 1 b!"1.2.3.4" ⟨echoPath, reportError⟩ oddities)).1.visits.length = 3 ∧
    (serve simple (newConn simple.P Config.default 1 b!"1.2.3.4" ⟨echoPath, reportError⟩ oddities)).2 = some .readFailed ∧
    (readReplies [.GET, .HEAD]
      (serve simple (newConn simple.P Config.default 1 b!"1.2.3.4" ⟨echoPath, reportError⟩ oddities)).1.client.written.flatten).map
      (List.map (fun m => (m.version, m.code, m.rest))) = some [(b!"HTTP/1.1", 200, b!"/a"), (b!"HTTP/1.0", 200, [])] := by
  refine ⟨by simp [NoWriteError, oddities], ?_, by decide +kernel, by decide +kernel, by decide +kernel⟩
  intro h
  have := h b!"GET" b!"/a HTTP/1.1\r" b!"x\r: 1\r\n\r\n" (by decide) (by decide) (by decide)
  have key : ∀ n x y : Bytes, n ++ 58 :: x = 120 :: 13 :: y → 13 ∈ n := by
    intro n x y hn
    match n with
    | [] => simp at hn
    | [_] => simp at hn
    | _ :: _ :: _ => simp at hn; simp [hn.2.1]
  generalize hs : b!"x\r: 1\r\n\r\n" = s at this
  cases this with
  | none => cases hs
  | endLF => cases hs
  | endCR => cases hs
  | name n a => subst hs; exact absurd a (by decide)
  | value n v a => exact a (key _ _ _ hs.symm)
  | field n v rest a => exact a (key _ _ _ hs.symm)

end Indigo.Props
