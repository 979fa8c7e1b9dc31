/-
C89: many clients at once, whatever they send.
-/
import Verif.Props.Crowd
import Verif.Props.Every

namespace Indigo.Props
open Indigo.Serve Indigo.Spec Indigo.Router Indigo.Spec.Router
variable {σ : Type} {text : GoErr → Bytes} {env : Env Act} {ops : List (Op Act)} {rt : Runtime Act}

/-- All calls of a conversation: with its requests, or those of its end. -/
theorem conversation_calls {ρ : Type} {E : Setup σ ρ} {T : Nat} {remote tail : Bytes} {post}
    {End : Environment → ρ → Serializer → Fields → List (Option GoErr) → List (Visit σ) → List Bytes → Ended → Prop} {env st d pre ws ss vs frames why}
    (h : Conversation E T remote tail post End env st d pre ws ss vs frames why) :
    ∀ v ∈ vs, (∃ s ∈ ss, ∃ e after seen world a left, v = .request seen world a left ∧ Delivered E T remote post e s after seen world) ∨
      (∃ seen a left, v = .error seen closeError a left) ∨ ∃ env st d pre ws vs frames why, End env st d pre ws vs frames why ∧ v ∈ vs := by
  induction h with
  | done he => exact fun v hv => .inr (.inr ⟨_, _, _, _, _, _, _, _, he, hv⟩)
  | panicked hd | hijacked hd | broken hd =>
    intro v hv
    simp only [List.mem_singleton] at hv
    exact .inl ⟨_, by simp, _, _, _, _, _, _, hv, hd⟩
  | closed hd =>
    intro v hv
    simp only [List.mem_cons, List.not_mem_nil, or_false] at hv
    rcases hv with hv | hv
    · exact .inl ⟨_, by simp, _, _, _, _, _, _, hv, hd⟩
    · exact .inr (.inl ⟨_, _, _, hv⟩)
  | next hd _ _ _ _ _ ih =>
    intro v hv
    rcases List.mem_cons.1 hv with hv | hv
    · exact .inl ⟨_, by simp, _, _, _, _, _, _, hv, hd⟩
    · rcases ih v hv with ⟨s, hs, h⟩ | h
      · exact .inl ⟨s, by simp [hs], h⟩
      · exact .inr h

/-- **C89.** As `C89_many_clients`, but this client sends any bytes: well-formed requests, none of them TRACE, and then something else (they can be read so in one way only, `C93_one_reading`). The handlers may answer with whatever they like, panic, or hijack the connection. Then
what is written to this client, and why serving it ends, is the same as if there was nobody else. -/
theorem C89_whatever (E : Setup σ (Runtime Act)) (dec : DecodesChunked E.P) (router : E.router = Router.impl E.F .panic) (cfg : Config)
    (size : cfg.bodyMaxSize < 2 ^ 64) (enc : EncToken) (remote : Bytes)
    (ops : List (Op Act)) (made : make E.F text env ops = some rt)
    (mutators : ∀ r, Untouched r (mutated ops r)) (tame : Tame E rt)
    (cl : Client) (quiet : Quiet cl) (post : List (Bytes × Option GoErr)) (over : Over post)
    (ss : List Sending) (tail : Bytes) (kind : Kind) (stream : cl.stream = ss.flatMap Sending.bytes ++ tail)
    (ok : ∀ s ∈ ss, SendableWith E.F cfg s ∧ s.head.method ≠ .TRACE)
    (of : kind.Of E.F (headLimits cfg) cfg.maxEncodingTokens.toNat cfg.bodyMaxSize.toNat tail)
    (inside : kind ≠ .outside ∧ ∀ h path given, kind ≠ .garbled h path given) (last : ∀ h path given, kind = .last h path given → h.method ≠ .TRACE)
    (changes : List (Runtime Act → Runtime Act)) (others : ∀ change ∈ changes, ∀ x, ∃ b, change x = { x with traceBuff := b }) :
    (serve (interfered E) ((newConn E.P cfg enc remote rt (followedBy cl post)).on (rt, changes))).1.client.written =
      (serve E (newConn E.P cfg enc remote rt (followedBy cl post))).1.client.written ∧
    (serve (interfered E) ((newConn E.P cfg enc remote rt (followedBy cl post)).on (rt, changes))).2 =
      (serve E (newConn E.P cfg enc remote rt (followedBy cl post))).2 ∧
    (serve (interfered E) ((newConn E.P cfg enc remote rt (followedBy cl post)).on (rt, changes))).1.visits =
      (serve E (newConn E.P cfg enc remote rt (followedBy cl post))).1.visits := by
  obtain ⟨ss', tail', kind', h1, h2, h3, c, why, vs, frames, h4, h5, -, h7⟩ :=
    C93_every_connection E dec cfg size enc remote rt tame cl quiet post over
  obtain ⟨rfl, rfl, rfl⟩ := C93_one_reading E.F cfg ss ss' tail tail' kind kind' (fun s hs => (ok s hs).1) h2 of h3 (stream.symm.trans h1)
  have other : ∀ (seen : Request) (e : Status.HTTPError) a (left : Act.World σ), e ≠ Status.ErrMethodNotAllowed → NoTrace ops (.error seen (.http e) a left) := by
    intro seen e a left he
    show ¬ (_ ∧ GoErr.http e = .http Status.ErrMethodNotAllowed)
    rintro ⟨_, h⟩
    cases h
    exact he rfl
  have close : ∀ (seen : Request) a (left : Act.World σ), NoTrace ops (.error seen closeError a left) := fun _ _ _ => other _ _ _ _ (by decide)
  obtain ⟨st, h⟩ := C79_interference_partial made E router (newConn E.P cfg enc remote rt (followedBy cl post)) rfl changes others (by
    rw [h4]
    intro v hv
    dsimp only at hv
    rw [h5] at hv
    rcases conversation_calls h7 v hv with ⟨s, hs, e, after, seen, world, a, left, rfl, hd⟩ | ⟨seen, a, left, rfl⟩ | ⟨env, st, d, pre, ws, vs, frames, why, he, hv⟩
    · show (mutated ops seen).Method ≠ .TRACE
      rw [(mutators seen).method, hd.carries.method]
      exact (ok s hs).2
    · exact close _ _ _
    · cases kind with
      | unfinished =>
        obtain ⟨seen, ans, left, rfl, -⟩ := he
        cases List.mem_singleton.1 hv
        exact close _ _ _
      | crashing =>
        obtain ⟨rfl, -⟩ := he
        cases hv
      | faulty e =>
        obtain ⟨seen, ans, left, more, -, -, -, rfl, -⟩ := he
        cases List.mem_singleton.1 hv
        exact other _ _ _ _ (fault_error of.2.2).2
      | tooLong =>
        obtain ⟨e, hm, seen, ans, left, more, -, -, -, rfl, -⟩ := he
        cases List.mem_singleton.1 hv
        have : ∀ e ∈ longErrors, e ≠ Status.ErrMethodNotAllowed := by decide
        exact other _ _ _ _ (this e hm)
      | last h path given =>
        have key : ∀ (seen : Request) (world : BC σ) a (left : Act.World σ) env, Announced E cfg.maxEncodingTokens.toNat remote post env h path given seen world →
            NoTrace ops (.request seen world a left) := by
          intro seen world a left env hd
          show (mutated ops seen).Method ≠ .TRACE
          rw [(mutators seen).method, hd.carries.method]
          exact last h path given rfl
        cases he with
        | panicked hd | hijacked hd | broken hd =>
          cases List.mem_singleton.1 hv
          exact key _ _ _ _ _ hd
        | answered hd =>
          simp only [List.mem_cons, List.not_mem_nil, or_false] at hv
          rcases hv with rfl | rfl
          · exact key _ _ _ _ _ hd
          · exact close _ _ _
      | garbled h path given => exact absurd rfl (inside.2 h path given)
      | outside => exact absurd rfl inside.1)
  rw [h]
  exact ⟨rfl, rfl, rfl⟩

/-- C89: the hypotheses about the program are met by `diner` (see `C87_program`), those about the client by two requests followed by a malformed head, and others TRACE meanwhile. The client
reads what it reads if it is alone. -/
example : ∃ cl : Client, Quiet cl ∧ cl.stream = [posted, chunked].flatMap Sending.bytes ++ brewing ∧
    (∀ s ∈ [posted, chunked], SendableWith dinerSetup.F Config.default s ∧ s.head.method ≠ .TRACE) ∧
    (Kind.faulty Status.ErrMethodNotImplemented).Of dinerSetup.F (headLimits Config.default) Config.default.maxEncodingTokens.toNat
      Config.default.bodyMaxSize.toNat brewing ∧
    (readReplies [.POST, .POST, .Unknown]
      (serve (interfered dinerSetup) ((newConn dinerSetup.P Config.default 1 b!"1.2.3.4" dinerRouter (followedBy cl [])).on (dinerRouter,
        [fun (x : Runtime Act) => { x with traceBuff := b!"TRACE / HTTP/1.1" }, fun x => { x with traceBuff := x.traceBuff ++ b!"Cookie: a" }]))).1.client.written.flatten).map
      (List.map (fun m => (m.code, m.rest))) = some [(200, b!"a!"), (200, b!"soup!"), (501, b!"!")] := by
  refine ⟨arrive [posted.bytes.take 41, posted.bytes.drop 41 ++ chunked.bytes, brewing.take 3, brewing.drop 3],
    by unfold Quiet; decide +kernel, by decide +kernel, ?_, ⟨brewing_fits.1, brewing_fits.2, ?_⟩, by decide +kernel⟩
  · intro s hs
    simp only [List.mem_cons, List.not_mem_nil, or_false] at hs
    rcases hs with rfl | rfl
    · exact ⟨posted_ok, by decide⟩
    · exact ⟨chunked_ok, by decide⟩
  · exact .unknownMethod b!"BREW" _ (by decide) (by decide) (by intro k; cases k <;> decide)

end Indigo.Props
