/-
C56: requests which ask for another version of HTTP/1, end to end.
-/
import Verif.Props.Every

namespace Indigo.Props
open Indigo.Serve Indigo.Spec Indigo.Serializer
variable {σ ρ : Type}

/-- **C56.** A client sends well-formed requests, one after another, in any segmentation, without waiting; some of them may ask for other protocols, and each except perhaps the last one leaves the connection open (`LeavesOpen`: it
does as well if it asks for a protocol which the server knows). The handlers answer with responses which say how long they are. Then what comes back is one answer for each request, and nothing else: a response in the version the request asks for, if this is a version of HTTP/1
and the first protocol it asks for which the server knows, after an interim response with the code 101 in the version of the request; and otherwise a response in the version of the request alone. An
independent reader of HTTP/1.x splits them correctly. (Missing: the interim response should name the version which is switched to, and nothing else; of this the claim is false by `C56_names_old_protocol_violation` and
`C56_headers_pile_up_violation`. What it says instead is in `Interim`.) -/
theorem C56_answers_partial (E : Setup σ ρ) (dec : DecodesChunked E.P) (cfg : Config)
    (size : cfg.bodyMaxSize < 2 ^ 64) (defaults : DefaultsOK E.F (cfg.defaultHeaders.getD [])) (enc : EncToken) (remote : Bytes)
    (st : ρ) (tame : Tame E st) (good : Sending → Prop)
    (answering : AnsweringIn answeredIn E (fun s => SendableWith E.F cfg s ∧ good s) cfg.maxEncodingTokens.toNat (cfg.defaultHeaders.getD []) st)
    (buffer : cfg.responseBuffSize < 16 ^ 8) (cl : Client) (quiet : Quiet cl) (writes : NoWriteError cl) (post : List (Bytes × Option GoErr)) (silent : Silent post)
    (ss : List Sending) (ok : ∀ s ∈ ss, SendableWith E.F cfg s ∧ good s) (stream : cl.stream = ss.flatMap Sending.bytes)
    (keep : ∀ s ∈ ss.dropLast, LeavesOpen s.head) :
    ∃ frames msgs,
      (serve E (newConn E.P cfg enc remote st (followedBy cl post))).1.client.written = cl.written ++ frames ∧
      readAnswers (ss.map (fun s => s.head.method)) frames.flatten = some msgs ∧ msgs.length = ss.length ∧
      ∀ i : Nat, ∀ (s : Sending) (a : Option Msg × Msg), ss[i]? = some s → msgs[i]? = some a →
        RepliedIn E st (cfg.defaultHeaders.getD []) (ss.take i) cfg.maxEncodingTokens.toNat remote post s a := by
  obtain ⟨c, why, vs, frames, h1, _, h2, h3⟩ :=
    C22_pipelining E dec cfg size enc remote st tame cl quiet post silent ss (fun s hs => (ok s hs).1) stream
  have h0 : Serializer.Ready E.F cfg.responseBuffSize (cfg.defaultHeaders.getD []) []
      (Serializer.new cfg.responseBuffSize (cfg.defaultHeaders.getD [])) := by
    refine ⟨rfl, ?_, rfl, Or.inl rfl⟩
    simp [Serializer.new, processDefaultHeaders_eq, defaultsAfter]
  obtain ⟨k, frames1, frames2, msgs, m0, m1, m2, m3, m4, m5⟩ :=
    conversation_read_any (n := cfg.responseBuffSize) defaults buffer h3 [] st [] rfl ⟨rfl, rfl, rfl, rfl⟩ h0 writes answering ok
  have hk : k = ss.length ∧ frames2 = [] := by
    rcases m5 with ⟨hf, s, hpos, hs, hcl⟩ | ⟨hk, history, heard, env, d, pre, ws, vs', why', earlier, hend, -⟩
    · refine ⟨?_, hf⟩
      by_cases hlt : k < ss.length
      · refine absurd (keep s ?_) hcl
        have : ss.dropLast[k - 1]? = some s := by
          rw [List.getElem?_dropLast, if_pos (by omega)]; exact hs
        exact List.mem_of_getElem? this
      · omega
    · refine ⟨hk, ?_⟩
      obtain ⟨seen, ans, left, -, ⟨world, hw, told⟩, hf, -⟩ := hend
      have := answering.error ([] ++ history) seen closeError world hw
      rw [told] at this
      exact hf this
  obtain ⟨hk, hf⟩ := hk
  refine ⟨frames, msgs, by rw [h1]; exact h2, ?_, by rw [m2, hk], fun i s a h h' => m4 i s a h h'⟩
  have := m3 [] [] [] rfl
  rw [hk, List.take_length] at this
  rw [m0, hf]
  simpa using this

/-! ### The hypotheses are met -/

/-- `GET /d HTTP/1.1`, to be answered in HTTP/1.0, or else in a protocol nobody knows. -/
def older : Sending where
  head := { method := .GET, target := b!"/d", query := none, version := b!"HTTP/1.1", crlf := true,
            fields := [⟨b!"Upgrade", 1, b!"gopher, HTTP/1.0", true⟩, ⟨b!"Connection", 1, b!"close", true⟩], lastCrlf := true }
  path := b!"/d"
  body := []
  coded := []

theorem older_ok : SendableWith Fold.ascii Config.default older where
  ok := ⟨by decide, by decide, by simp [older], ⟨⟨_, 46, .inr (.inl ⟨rfl, rfl⟩)⟩, by decide, by decide⟩, by
    intro f hf
    simp only [older, List.mem_cons, List.not_mem_nil, or_false] at hf
    rcases hf with rfl | rfl <;> exact ⟨by decide, by decide, by decide, by decide, by decide, by decide⟩⟩
  clean := by unfold Head.CleanNames; decide
  noBareEmpty := by unfold Head.NoBareEmpty; decide
  fits := ⟨by decide +kernel, by decide +kernel, by decide +kernel, by decide +kernel, by decide +kernel⟩
  path := pct_lit (by decide)
  framed := .sized (by decide +kernel) rfl (by decide)
  body := by decide +kernel

/-- C56: two requests which ask for HTTP/1.0, and say that the connection is to be closed, with another one between them. All of them are answered; the connection is kept. -/
example : ∃ cl : Client, Quiet cl ∧ NoWriteError cl ∧ cl.stream = [older, chunked, older].flatMap Sending.bytes ∧
    (∀ s ∈ [older, chunked, older], SendableWith simple.F Config.default s ∧ True) ∧
    (∀ s ∈ [older, chunked, older].dropLast, LeavesOpen s.head) ∧
    let answers := readAnswers [.GET, .POST, .GET]
      (serve simple (newConn simple.P Config.default 1 b!"1.2.3.4" ⟨echoPath, reportError⟩ (followedBy cl []))).1.client.written.flatten
    answers.map (List.map (fun a => (a.2.version, a.2.code, a.2.rest))) =
      some [(b!"HTTP/1.0", 200, b!"/d"), (b!"HTTP/1.1", 200, b!"/b c"), (b!"HTTP/1.0", 200, b!"/d")] ∧
    answers.map (List.filterMap (fun a => a.1.map (fun m => (m.version, m.code, m.fields.length)))) =
      some [(b!"HTTP/1.1", 101, 4), (b!"HTTP/1.1", 101, 6)] := by
  refine ⟨arrive [older.bytes.take 30, older.bytes.drop 30 ++ chunked.bytes ++ older.bytes], by unfold Quiet; decide +kernel, by simp [NoWriteError, arrive], by decide +kernel,
    ?_, ?_, by decide +kernel⟩
  · intro s hs
    simp only [List.mem_cons, List.not_mem_nil, or_false] at hs
    rcases hs with rfl | rfl | rfl
    · exact ⟨older_ok, trivial⟩
    · exact ⟨chunked_ok, trivial⟩
    · exact ⟨older_ok, trivial⟩
  · intro s hs
    simp only [List.dropLast, List.mem_cons, List.not_mem_nil, or_false] at hs
    rcases hs with rfl | rfl
    · exact .inl (by decide +kernel)
    · refine .inr ⟨?_, by decide⟩
      rintro p ⟨sep, ⟨h, rfl⟩ | ⟨h, rfl⟩ | ⟨h, rfl⟩⟩
      · simp [chunked] at h
      · decide
      · simp [chunked] at h

end Indigo.Props
