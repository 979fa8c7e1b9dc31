/-
C93, C101: a request which announces a chunked body, and something else after it.
-/
import Verif.Props.Every
import Verif.Props.Overlong

namespace Indigo.Props
open Indigo.Spec Indigo.Serve Indigo.Body

/-- What is not, and does not begin, the chunked coding of anything. -/
private def nonsense : Bytes := b!"x\r\n0\r\n\r\nGET /c HTTP/1.1\r\n\r\n"

theorem nonsense_garbled : GarbledBody simple.F Config.default.maxEncodingTokens.toNat Config.default.bodyMaxSize.toNat chunked.head nonsense where
  chunked := by decide +kernel
  none chunks coded after e h := by
    obtain ⟨c, rest, rfl, hc⟩ := coding_begins h
    rw [show nonsense = 120 :: nonsense.tail from rfl, List.cons_append, List.cons.injEq] at e
    exact absurd (by rw [← e.1]; decide) hc
  begun chunks missing h := by
    obtain ⟨c, rest, e, hc⟩ := coding_begins h
    rw [show nonsense = 120 :: nonsense.tail from rfl, List.cons_append, List.cons.injEq] at e
    exact absurd (by rw [← e.1]; decide) hc

/-- C93, C101: after a request comes one with such a body. Both are answered; the server goes no further, as the handler leaves the body alone. -/
example : ∃ cl : Client, Quiet cl ∧ NoWriteError cl ∧ cl.stream = [chunked].flatMap Sending.bytes ++ (chunked.head.render ++ nonsense) ∧
    (∀ s ∈ [chunked], SendableWith simple.F Config.default s ∧ True) ∧
    (Kind.garbled chunked.head chunked.path nonsense).Of simple.F (headLimits Config.default) Config.default.maxEncodingTokens.toNat
      Config.default.bodyMaxSize.toNat (chunked.head.render ++ nonsense) ∧
    (readReplies [.POST, .POST]
      (serve simple (newConn simple.P Config.default 1 b!"1.2.3.4" ⟨echoPath, reportError⟩ (followedBy cl []))).1.client.written.flatten).map
      (List.map (fun m => (m.code, m.rest))) = some [(200, b!"/b c"), (200, b!"/b c")] := by
  refine ⟨arrive [chunked.bytes ++ chunked.head.render.take 30, chunked.head.render.drop 30 ++ nonsense], by unfold Quiet; decide +kernel, by simp [NoWriteError, arrive],
    by decide +kernel, ?_, ⟨rfl, ?_, nonsense_garbled⟩, by decide +kernel⟩
  · intro s hs
    cases List.mem_singleton.1 hs
    exact ⟨chunked_ok, trivial⟩
  · exact ⟨chunked_ok.ok, chunked_ok.clean, chunked_ok.noBareEmpty, chunked_ok.fits, chunked_ok.path⟩

end Indigo.Props
