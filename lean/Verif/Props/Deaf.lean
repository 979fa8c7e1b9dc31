/-
C109: clients which cannot be written to any more.
-/
import Verif.Props.Session
import Verif.Proofs.DeafServe

namespace Indigo.Props
open Indigo.Serve Indigo.Spec Indigo.Serializer
variable {σ ρ : Type}

/-- **C109.** Whatever comes on a connection and whatever the handlers do (but for hijacking it), and whichever writes fail: what is written is the beginning of what is written if no write fails; and the requests the router is called with, and the responses it
gives to them, are the first of those of that case. So a handler never notices that an earlier response could not be written, and nothing is sent which would not be sent otherwise. -/
theorem C109_beginning (E : Setup σ ρ) (cfg : Config) (enc : EncToken) (remote : Bytes) (st : ρ) (cl : Client)
    (calm : NotHijacked (serve E (newConn E.P cfg enc remote st cl)).1.visits) :
    let r := serve E (newConn E.P cfg enc remote st cl)
    let r0 := serve E (newConn E.P cfg enc remote st { cl with wscript := [] })
    r.1.client.written <+: r0.1.client.written ∧ answersOf r.1.visits <+: answersOf r0.1.visits := by
  have := loop_sim E ((newConn E.P cfg enc remote st cl).client.size + 1) (newConn E.P cfg enc remote st cl) cl.written [] calm
  obtain ⟨nv, nv0, fr, fr0, h1, h2, h3, h4, h5, h6⟩ := this
  have e : serveLoop E ((newConn E.P cfg enc remote st cl).client.size + 1) ((newConn E.P cfg enc remote st cl).as [] cl.written []) =
      serve E (newConn E.P cfg enc remote st { cl with wscript := [] }) := rfl
  rw [e] at h2 h4
  dsimp only
  rw [h2, h4]
  have h1' : (serve E (newConn E.P cfg enc remote st cl)).1.visits = nv := h1
  have h3' : (serve E (newConn E.P cfg enc remote st cl)).1.client.written = cl.written ++ fr := h3
  rw [h1', h3']
  exact ⟨by simpa using h5, by simpa using h6⟩

theorem session_failed {E : Setup σ ρ} {old st d pre ws vs frames why} (h : Session E old st d pre ws vs frames why) : NotHijacked vs →
    ∀ (k : Nat) (e : GoErr), ws[k]? = some (some e) → k < frames.length → k + 1 = frames.length ∧
      ∃ seen e' ans left, vs.getLast? = some (.error seen e' ans left) ∧
        (e' = closeError ∧ why = (if ans.isSome then .writeFailed else .panicked) ∨ (∃ h ∈ headErrors, e' = .http h) ∧ ans.isSome ∧ why = .rejected) := by
  induction h with
  | crashed => intro _ k e _ hk; simp at hk
  | silent _ hf =>
    intro hq k e _ hk
    rw [hf (hq _ (List.mem_singleton.2 rfl))] at hk
    simp at hk
  | refusedPanic _ _ hf =>
    intro hq k e _ hk
    rw [hf (hq _ (List.mem_singleton.2 rfl))] at hk
    simp at hk
  | @refused _ _ d _ ws seen e f req left more w he _ _ hf hw =>
    intro hq k x hx hk
    obtain ⟨hf1, hf2⟩ := hf (hq _ (List.mem_singleton.2 rfl))
    subst hf1
    obtain ⟨fr, c1, c2, c3⟩ := write_careful E.F d req.Proto req f { wscript := left.client.wscript }
    rw [← hw] at c1 c2 c3
    dsimp only at c1
    rw [List.nil_append] at c1 hk ⊢
    rw [c1] at hk ⊢
    obtain ⟨l1, e', l2⟩ := c3 k x hk (by rw [hf2]; exact hx)
    exact ⟨l1, _, _, _, _, rfl, .inr ⟨⟨e, he, rfl⟩, rfl, by rw [l2]; simp⟩⟩
  | panicked _ _ hf =>
    intro hq k e _ hk
    rw [hf (hq _ (List.mem_singleton.2 rfl))] at hk
    simp at hk
  | hijacked _ _ hh =>
    intro hq
    have := hq _ (List.mem_singleton.2 rfl)
    dsimp only at this
    rw [hh] at this; cases this
  | @broken _ _ d pre ws seen world f req left w _ _ _ hw hout =>
    intro hq k e hx hk
    obtain ⟨fr, c1, c2, c3⟩ := write_careful E.F (opening E.F d pre seen).2.1 (opening E.F d pre seen).1 req f { wscript := ws }
    rw [← hw] at c1 c2 c3
    dsimp only at c1
    rw [List.nil_append] at c1
    rw [c1] at hk
    obtain ⟨-, e', l2⟩ := c3 k e hk hx
    rw [l2] at hout; cases hout
  | @closed _ _ d pre ws seen world f req left w seen' ans left' more why _ _ _ hw _ _ hm hwhy =>
    intro hq k e hx hk
    have hmore : more = [] := hm (hq (.error seen' closeError ans left') (by simp))
    subst hmore
    obtain ⟨fr, c1, c2, c3⟩ := write_careful E.F (opening E.F d pre seen).2.1 (opening E.F d pre seen).1 req f { wscript := ws }
    rw [← hw] at c1 c2 c3
    dsimp only at c1
    rw [List.nil_append] at c1
    rw [List.append_nil, c1] at hk ⊢
    obtain ⟨l1, e', l2⟩ := c3 k e hk hx
    refine ⟨l1, _, _, _, _, rfl, .inl ⟨rfl, ?_⟩⟩
    rw [hwhy, l2]; simp
  | @next _ _ d pre ws seen world f req left w vs frames why _ _ _ hw hout _ ih =>
    intro hq k e hx hk
    obtain ⟨fr, c1, c2, c3⟩ := write_careful E.F (opening E.F d pre seen).2.1 (opening E.F d pre seen).1 req f { wscript := ws }
    rw [← hw] at c1 c2 c3
    dsimp only at c1 c2
    rw [List.nil_append] at c1
    by_cases hlt : k < fr.length
    · obtain ⟨-, e', l2⟩ := c3 k e hlt hx
      rw [l2] at hout; cases hout
    · obtain ⟨l1, seen', e', ans, left', l2, l3⟩ := ih (fun v hv => hq v (List.mem_cons_of_mem _ hv)) (k - fr.length) e
        (by rw [c2, List.getElem?_drop, show fr.length + (k - fr.length) = k by omega]; exact hx)
        (by rw [c1, List.length_append] at hk; omega)
      refine ⟨by rw [c1, List.length_append]; omega, seen', e', ans, left', ?_, l3⟩
      rw [List.getLast?_cons, l2]; rfl

/-- **C109.** A write which fails is the last one, if the connection is not hijacked; the last call of the router tells it that the connection is closed, or it was the answer about a refused head which could not be written; then the connection is closed. -/
theorem C109_last_write (E : Setup σ ρ) (cfg : Config) (enc : EncToken) (remote : Bytes) (st : ρ) (cl : Client)
    (calm : NotHijacked (serve E (newConn E.P cfg enc remote st cl)).1.visits) (k : Nat) (e : GoErr) (fails : cl.wscript[k]? = some (some e)) :
    let r := serve E (newConn E.P cfg enc remote st cl)
    cl.written.length + k < r.1.client.written.length →
      r.1.client.written.length = cl.written.length + k + 1 ∧
      ∃ seen e' ans left, r.1.visits.getLast? = some (.error seen e' ans left) ∧
        (e' = closeError ∧ r.2 = some (if ans.isSome then .writeFailed else .panicked) ∨ (∃ h ∈ headErrors, e' = .http h) ∧ ans.isSome ∧ r.2 = some .rejected) := by
  obtain ⟨why, vs, frames, h1, h2, h3, h4⟩ := serve_newConn_session E cfg enc remote st cl
  rw [h2] at calm
  dsimp only
  rw [h1, h2, h3]
  intro hk
  rw [List.length_append] at hk
  obtain ⟨l1, seen, e', ans, left, l2, l3⟩ := session_failed h4 calm k e fails (by omega)
  exact ⟨by rw [List.length_append]; omega, seen, e', ans, left, l2, by simpa using l3⟩

theorem steady_calm (E : Setup σ ρ) (cfg : Config) (enc : EncToken) (remote : Bytes) (st : ρ) (defs : List (Bytes × Bytes)) (steady : Steady E defs st) (cl : Client) :
    NotHijacked (serve E (newConn E.P cfg enc remote st cl)).1.visits := by
  intro v hv
  obtain ⟨i, hi⟩ := List.getElem?_of_mem hv
  obtain ⟨hh, -⟩ := C107_calls E cfg enc remote st cl i v hi
  cases v with
  | request seen world answer left =>
    obtain ⟨-, a2, a3, a4, a5⟩ := hh
    obtain ⟨f, req, left', s1, s2, -⟩ := steady.request (requestsOf (_ : List (Visit σ))) seen world a2 a3 a4
    unfold Answers at s1 a5
    rw [a5] at s1
    cases s1
    exact s2
  | error seen e answer left =>
    obtain ⟨a1, world, a2, a3⟩ := hh
    obtain ⟨f, req, left', s1, s2, -⟩ := steady.error (requestsOf (_ : List (Visit σ))) seen e world a1 a2
    rw [a3] at s1
    cases s1
    exact s2

/-- **C109.** Whatever comes on a connection, and whichever writes fail: if the handlers and the error handler answer with responses which say how long they are, then what the server writes is the beginning of a text of complete answers (as in `C107_answers`): one for each request
of `calls`, in order, which say what the responses say, and perhaps one about a head which is refused; and the requests the router was called with, and its responses to them, are the first ones of `calls`. So a client which gets only a part of what the server
sends reads nothing but complete answers, and perhaps the beginning of one more. -/
theorem C109_answers (E : Setup σ ρ) (cfg : Config) (defaults : DefaultsOK E.F (cfg.defaultHeaders.getD [])) (buffer : cfg.responseBuffSize < 16 ^ 8)
    (enc : EncToken) (remote : Bytes) (st : ρ) (steady : Steady E (cfg.defaultHeaders.getD []) st) (cl : Client) :
    let r := serve E (newConn E.P cfg enc remote st cl)
    ∃ (calls : List (Visit σ)) (frames1 frames2 : List Bytes) (msgs : List (Option Msg × Msg)), r.1.client.written <+: cl.written ++ frames1 ++ frames2 ∧ answersOf r.1.visits <+: answersOf calls ∧
      msgs.length = calls.length ∧
      (∀ ms more l, readAnswers ms more = some l →
        readAnswers ((requestsOf calls).map Request.Method ++ ms) (frames1.flatten ++ more) = some (msgs ++ l)) ∧
      (∀ (i : Nat) (v : Visit σ) (a : Option Msg × Msg), calls[i]? = some v → msgs[i]? = some a → ∃ seen world f req left,
        v = .request seen world (some (f, req)) left ∧ AnswerOf (cfg.defaultHeaders.getD []) (requestsOf (calls.take i)) seen f a) ∧
      (frames2 = [] ∨ ∃ seen e f, e ∈ headErrors ∧ (e ≠ Status.ErrUnsupportedProtocol →
        ∃ m, readAnswers [seen.Method] frames2.flatten = some [(none, m)] ∧ ExcuseOf (cfg.defaultHeaders.getD []) seen f m)) := by
  obtain ⟨b1, b2⟩ := C109_beginning E cfg enc remote st cl (steady_calm E cfg enc remote st _ steady cl)
  obtain ⟨calls, last, frames1, frames2, msgs, m0, m1, m2, m3, m4, m5⟩ := C107_answers E cfg defaults buffer enc remote st steady { cl with wscript := [] } (by simp [NoWriteError])
  dsimp only at m1
  dsimp only
  refine ⟨calls, frames1, frames2, msgs, by rw [← m1]; exact b1, ?_, m2, m3, m4, ?_⟩
  · rw [m0, answersOf_append] at b2
    have hl : answersOf last = [] := by
      rcases m5 with ⟨e, -⟩ | ⟨_, _, _, e, -⟩ | ⟨_, _, _, _, _, -, e, -⟩ <;> rw [e] <;> rfl
    rwa [hl, List.append_nil] at b2
  · rcases m5 with ⟨-, e, -⟩ | ⟨_, _, _, -, e, -⟩ | ⟨seen, e, f, _, _, he, -, h⟩
    · exact .inl e
    · exact .inl e
    · exact .inr ⟨seen, e, f, he, fun hne => (h hne).2⟩

/-! ### The hypotheses are met -/

/-- Three requests at once; the second write fails. -/
def deaf : Client :=
  { conn := [(b!"GET /a HTTP/1.1\r\n\r\nGET /b HTTP/1.1\r\n\r\nGET /c HTTP/1.1\r\n\r\n", none)], wscript := [none, some (.other 32)] }

/-- C109: the second request is answered in vain; the third one is not seen. The router is told that the connection is closed. -/
example : deaf.wscript[1]? = some (some (.other 32)) ∧
    (serve simple (newConn simple.P Config.default 1 b!"1.2.3.4" ⟨echoPath, reportError⟩ deaf)).1.client.written.length = 2 ∧
    (serve simple (newConn simple.P Config.default 1 b!"1.2.3.4" ⟨echoPath, reportError⟩ deaf)).1.visits.length = 3 ∧
    (serve simple (newConn simple.P Config.default 1 b!"1.2.3.4" ⟨echoPath, reportError⟩ deaf)).2 = some .writeFailed ∧
    (serve simple (newConn simple.P Config.default 1 b!"1.2.3.4" ⟨echoPath, reportError⟩ { deaf with wscript := [] })).1.client.written.length = 3 ∧
    NotHijacked (serve simple (newConn simple.P Config.default 1 b!"1.2.3.4" ⟨echoPath, reportError⟩ deaf)).1.visits :=
  ⟨rfl, by decide +kernel, by decide +kernel, by decide +kernel, by decide +kernel, steady_calm _ _ _ _ _ _ echo_steady _⟩

end Indigo.Props
