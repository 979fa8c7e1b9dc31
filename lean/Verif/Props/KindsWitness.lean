/-
C93: a connection.
-/
import Verif.Props.Kinds
import Verif.Props.ServeWitness

namespace Indigo.Props
open Indigo.Spec Indigo.Serve Indigo.Body

/-- C93, C03: three requests and a fourth one without a version, cut into segments somehow: three answers are written, and
then the server crashes. -/
example : ∃ cl : Client, Quiet cl ∧ Over [] ∧ cl.stream = [posted, chunked, gotten].flatMap Sending.bytes ++ (b!"GET / " ++ [10]) ∧
    (∀ s ∈ [posted, chunked, gotten], SendableWith simple.F Config.default s) ∧
    Kind.crashing.Of simple.F (headLimits Config.default) Config.default.maxEncodingTokens.toNat Config.default.bodyMaxSize.toNat
      (b!"GET / " ++ [10]) ∧
    (serve simple (newConn simple.P Config.default 1 b!"1.2.3.4" ⟨report, reportError⟩ (followedBy cl []))).1.client.written.length = 3 ∧
    (serve simple (newConn simple.P Config.default 1 b!"1.2.3.4" ⟨report, reportError⟩ (followedBy cl []))).2 = some .panicked := by
  refine ⟨arrive [posted.bytes.take 41, posted.bytes.drop 41 ++ chunked.bytes.take 55, chunked.bytes.drop 55 ++ gotten.bytes ++ b!"GE",
    b!"T / " ++ [10]], ?_, by simp [Over], by decide +kernel, ?_, ⟨?_, ?_, ?_⟩, by decide +kernel, by decide +kernel⟩
  · unfold Quiet; decide +kernel
  · intro s hs
    simp only [List.mem_cons, List.not_mem_nil, or_false] at hs
    rcases hs with rfl | rfl | rfl
    · exact posted_ok
    · exact chunked_ok
    · exact gotten_ok
  · have e1 : b!"GET / " ++ [10] = b!"GET" ++ 32 :: (b!"/ " ++ 10 :: []) := rfl
    refine ⟨by decide, ?_, ?_⟩
    · intro m line e h1 h2
      obtain ⟨_, a2⟩ := Parser.cut_unique (e.symm.trans e1) h1 (by decide)
      rw [a2] at h2; exact absurd h2 (by decide)
    · intro m line rest e h1 h2
      obtain ⟨rfl, a2⟩ := Parser.cut_unique (e.symm.trans e1) h1 (by decide)
      obtain ⟨rfl, _⟩ := Parser.cut_unique a2 h2 (by decide)
      decide +kernel
  · intro m line rest e h1 h2
    have e1 : b!"GET / " ++ [10] = b!"GET" ++ 32 :: (b!"/ " ++ 10 :: []) := rfl
    obtain ⟨rfl, a2⟩ := Parser.cut_unique (e.symm.trans e1) h1 (by decide)
    obtain ⟨_, rfl⟩ := Parser.cut_unique a2 h2 (by decide)
    exact .none
  · exact .line .GET b!"/" [] (by decide) (by decide) (by decide +kernel)

end Indigo.Props
