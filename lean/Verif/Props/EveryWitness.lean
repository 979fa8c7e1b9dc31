/-
C101: what a client cannot read.
-/
import Verif.Props.Every

namespace Indigo.Props
open Indigo.Serve Indigo.Spec

/-- Request lines of at most twenty bytes. -/
def narrow : Config := { Config.default with urlBufferDefault := 10, urlBufferMaximal := 20 }

/-- A method nobody would wait for the end of. -/
def shouting : Bytes := List.replicate 40 71

/-- **C101 is false** of too long request lines when it is the method which is too long: the method of the last request on the connection counts. Here this was HEAD, and the response to the second
head announces a body which does not come: whatever else the client takes for the method, it cannot read this response. -/
theorem C101_long_method_violation : ∃ cl : Client, Quiet cl ∧ NoWriteError cl ∧ cl.stream = peeked.bytes ++ shouting ∧ SendableWith simple.F narrow peeked ∧
    Kind.tooLong.Of simple.F (headLimits narrow) narrow.maxEncodingTokens.toNat narrow.bodyMaxSize.toNat shouting ∧
    ∀ m, m ≠ .HEAD → readAnswers [.HEAD, m]
      (serve simple (newConn simple.P narrow 0 b!"1.2.3.4" ⟨report, reportError⟩ cl)).1.client.written.flatten = none := by
  refine ⟨arrive [peeked.bytes ++ shouting], by unfold Quiet; decide +kernel, by simp [NoWriteError, arrive], by decide +kernel, ?_, ?_, ?_⟩
  · exact {
      ok := ⟨by decide, by decide, by simp [peeked], ⟨⟨_, 46, .inr (.inl ⟨rfl, rfl⟩)⟩, by decide, by decide⟩, by simp [peeked]⟩
      clean := by unfold Head.CleanNames; decide
      noBareEmpty := by unfold Head.NoBareEmpty; decide
      fits := ⟨by decide +kernel, by decide +kernel, by decide +kernel, by decide +kernel, by decide +kernel⟩
      path := pct_lit (by decide)
      framed := .sized (by decide +kernel) rfl (by decide)
      body := by decide +kernel }
  · exact ⟨by decide +kernel, .inl ⟨by decide +kernel, by decide +kernel⟩⟩
  · intro m hm
    cases m <;> first | exact absurd rfl hm | decide +kernel

/-- **C101 is false** of heads with a version which is not supported: the response has no version, and is none for a reader of HTTP/1.x. -/
theorem C101_no_version_violation : ∃ cl : Client, Quiet cl ∧ NoWriteError cl ∧ cl.stream = b!"GET /b HTTP/3.0\r\n\r\n" ∧
    (Kind.faulty Status.ErrUnsupportedProtocol).Of simple.F (headLimits Config.default) Config.default.maxEncodingTokens.toNat Config.default.bodyMaxSize.toNat b!"GET /b HTTP/3.0\r\n\r\n" ∧
    ∀ m, readAnswers [m] (serve simple (newConn simple.P Config.default 0 b!"1.2.3.4" ⟨report, reportError⟩ cl)).1.client.written.flatten = none := by
  have e1 : (b!"GET /b HTTP/3.0\r\n\r\n" : Bytes) = b!"GET" ++ 32 :: (b!"/b HTTP/3.0\r" ++ 10 :: b!"\r\n") := rfl
  have key : ∀ m line rest : Bytes, (b!"GET /b HTTP/3.0\r\n\r\n" : Bytes) = m ++ 32 :: (line ++ 10 :: rest) → 32 ∉ m → 10 ∉ line →
      m = b!"GET" ∧ line = b!"/b HTTP/3.0\r" ∧ rest = b!"\r\n" := by
    intro m line rest e h1 h2
    obtain ⟨a1, a2⟩ := Parser.cut_unique (e.symm.trans e1) h1 (by decide)
    obtain ⟨a3, a4⟩ := Parser.cut_unique a2 h2 (by decide)
    exact ⟨a1, a3, a4⟩
  refine ⟨arrive [b!"GET /b HTTP/3.0\r\n\r\n"], by unfold Quiet; decide +kernel, by simp [NoWriteError, arrive], by decide +kernel, ⟨⟨by decide +kernel, ?_, ?_⟩, ?_, ?_⟩, ?_⟩
  · intro m line e h1 h2
    obtain ⟨_, a2⟩ := Parser.cut_unique (e.symm.trans e1) h1 (by decide)
    rw [a2] at h2; exact absurd h2 (by decide)
  · intro m line rest e h1 h2
    obtain ⟨rfl, rfl, _⟩ := key m line rest e h1 h2
    decide +kernel
  · intro m line rest e h1 h2
    obtain ⟨_, _, rfl⟩ := key m line rest e h1 h2
    exact .endCR _
  · exact .line b!"GET" b!"/b HTTP/3.0\r" _ _ (by decide) (by decide) (by decide +kernel)
      (.badVersion .GET b!"/b" none b!"HTTP/3.0" true (by decide) (by decide) (by decide) (.lit (by decide) (.lit (by decide) .nil)) (by decide) nofun (by
        rintro ⟨p, sep, ⟨h, -⟩ | ⟨h, -⟩ | ⟨h, -⟩⟩ <;> simp at h))
  · intro m
    cases m <;> decide +kernel

end Indigo.Props
