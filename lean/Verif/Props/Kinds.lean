/-
C93: every connection.
-/
import Verif.Props.Outcome
import Verif.Props.Cut
import Verif.Props.ServeWitness
import Verif.Proofs.Unique

namespace Indigo.Props
open Indigo.Spec Indigo.Serve Indigo.Body
variable {σ ρ : Type}

/-- **C93.** Whatever bytes a client sends on a new connection, and however they are cut into segments: they are well-formed
requests within the limits, one after another, and then something which is not (`Kind.Of`). The connection is served as a
conversation: the router is called with each of the requests, in order, its answers are written in order, and then what
comes after the requests is dealt with as its kind says (`Kind.End`). After the bytes there come only errors (`post`): the
connection is closed, fails, or times out. -/
theorem C93_every_connection (E : Setup σ ρ) (dec : DecodesChunked E.P) (cfg : Config)
    (size : cfg.bodyMaxSize < 2 ^ 64) (enc : EncToken) (remote : Bytes) (st : ρ) (tame : Tame E st) (cl : Client) (quiet : Quiet cl)
    (post : List (Bytes × Option GoErr)) (over : Over post) :
    ∃ (ss : List Sending) (tail : Bytes) (kind : Kind), cl.stream = ss.flatMap Sending.bytes ++ tail ∧
      (∀ s ∈ ss, SendableWith E.F cfg s) ∧
      kind.Of E.F (headLimits cfg) cfg.maxEncodingTokens.toNat cfg.bodyMaxSize.toNat tail ∧
      ∃ c why vs frames, serve E (newConn E.P cfg enc remote st (followedBy cl post)) = (c, some why) ∧
        c.visits = vs ∧ c.client.written = cl.written ++ frames ∧
        Conversation E cfg.maxEncodingTokens.toNat remote tail post (kind.End E (headLimits cfg) cfg.maxEncodingTokens.toNat remote tail post)
          { Encryption := enc } st (Serializer.new cfg.responseBuffSize (cfg.defaultHeaders.getD [])) Fields.new cl.wscript ss vs
          frames why := by
  obtain ⟨ss, tail, kind, h1, h2, h3⟩ := Parser.stream_kinds E.F (headLimits cfg) cfg.maxEncodingTokens.toNat
    cfg.bodyMaxSize.toNat _ cl.stream (Nat.le_refl _)
  refine ⟨ss, tail, kind, h1, h2, h3, ?_⟩
  have silent : Silent post := by
    intro ev hev
    cases post with
    | nil => cases hev
    | cons p ps => cases hev; exact over _ (by simp)
  cases kind with
  | unfinished =>
    exact C70_open_head E dec cfg size enc remote st tame cl quiet post silent ss h2 tail h3.1 h3.2.1 h3.2.2 h1
  | faulty e =>
    exact C32_malformed_partial E dec cfg size enc remote st tame cl quiet post ss h2 tail e h3.1 h3.2.1 h3.2.2 h1
  | tooLong =>
    exact C05_long_line_connection E dec cfg size enc remote st tame cl quiet post ss h2 tail h3.1 h3.2 h1
  | crashing =>
    exact C03_connection_crash_partial E dec cfg size enc remote st tame cl quiet post ss h2 tail h3.1 h3.2.1 h3.2.2 h1
  | last h path given =>
    obtain ⟨rfl, good, cut⟩ := h3
    exact C91_last_request E dec cfg size enc remote st tame cl quiet post over ss h2 h path given good cut h1
  | garbled h path given =>
    obtain ⟨rfl, good, -⟩ := h3
    obtain ⟨vs, frames, why, k1, k2⟩ := serve_conversation E dec (L := headLimits cfg) (limit := cfg.bodyMaxSize.toNat)
      (by unfold maxUint; omega) (remote := remote) (h.render ++ given) post (FirstOf E cfg.maxEncodingTokens.toNat remote post h path given)
      (fun env c cl1 idle hc q hs => serve_first E post h path given good env c cl1 idle hc q hs)
      ss { Encryption := enc } (newConn E.P cfg enc remote st (followedBy cl post)) cl tame
      (newConn_idle E cfg enc remote st _) rfl quiet h2 h1
    exact ⟨_, why, vs, frames, by rw [← k1.why], by rw [k1.visits]; rfl, k1.written, k2⟩
  | outside =>
    obtain ⟨vs, frames, why, k1, k2⟩ := serve_conversation E dec (L := headLimits cfg) (limit := cfg.bodyMaxSize.toNat)
      (by unfold maxUint; omega) (remote := remote) tail post (Kind.outside.End E (headLimits cfg) cfg.maxEncodingTokens.toNat remote tail post)
      (by
        intro env c cl1 _ _ _ _
        obtain ⟨why, hw⟩ := serve_ends E c
        obtain ⟨⟨vs, hv⟩, frames, hf⟩ := serve_grown E c
        exact ⟨vs, frames, why, ⟨hw, hv.symm, hf.symm⟩, trivial⟩)
      ss { Encryption := enc } (newConn E.P cfg enc remote st (followedBy cl post)) cl tame
      (newConn_idle E cfg enc remote st _) rfl quiet h2 h1
    exact ⟨_, why, vs, frames, by rw [← k1.why], by rw [k1.visits]; rfl, k1.written, k2⟩

/-- **C93.** The requests of `C93_every_connection`, and the kind of what comes after them, are determined by the bytes which
are sent: there is one way only to read a stream as a sequence of well-formed requests within the limits (heads, paths and
bodies), followed by something which does not begin with such a request. -/
theorem C93_one_reading (F : Fold) (cfg : Config) (ss ss' : List Sending) (tail tail' : Bytes) (kind kind' : Kind)
    (ok : ∀ s ∈ ss, SendableWith F cfg s) (ok' : ∀ s ∈ ss', SendableWith F cfg s)
    (of : kind.Of F (headLimits cfg) cfg.maxEncodingTokens.toNat cfg.bodyMaxSize.toNat tail)
    (of' : kind'.Of F (headLimits cfg) cfg.maxEncodingTokens.toNat cfg.bodyMaxSize.toNat tail')
    (same : ss.flatMap Sending.bytes ++ tail = ss'.flatMap Sending.bytes ++ tail') :
    ss = ss' ∧ tail = tail' ∧ kind = kind' := by
  obtain ⟨p, hp, hl⟩ : ∃ p : Parser.PState, Parser.Ready p ∧ Parser.limits p = headLimits cfg := by
    have h := newConn_idle ({ F, P := Spec.refParser, maxAlloc := 0
                              router := { onRequest := fun _ r => (pure (Fields.new, r), ()), onError := fun _ r _ => (pure (Fields.new, r), ()) } } :
        Setup Spec.CS Unit) cfg 0 [] () {}
    exact ⟨_, h.ready, h.limits⟩
  rw [← hl] at of of'
  exact Parser.stream_unique hp of of' ss ss' (by rw [hl]; exact ok) (by rw [hl]; exact ok') same

/-- Three requests and the beginning of a fourth one are read in this way, and so in no other. -/
example : (∀ s ∈ [posted, chunked, gotten], SendableWith Fold.ascii Config.default s) ∧
    Kind.unfinished.Of Fold.ascii (headLimits Config.default) Config.default.maxEncodingTokens.toNat Config.default.bodyMaxSize.toNat b!"GE" := by
  refine ⟨?_, ⟨fun _ => by decide, ?_, ?_⟩, ?_, .method _ (by decide) (by decide)⟩
  · intro s hs
    simp only [List.mem_cons, List.not_mem_nil, or_false] at hs
    rcases hs with rfl | rfl | rfl
    · exact posted_ok
    · exact chunked_ok
    · exact gotten_ok
  all_goals
    intro m line
    intros
    have h : (32 : Byte) ∈ b!"GE" := by rw [‹b!"GE" = _›]; simp
    exact absurd h (by decide)

end Indigo.Props
