/-
C89 Many clients at once, end to end.
-/
import Verif.Props.Program
import Verif.Props.Concurrent

namespace Indigo.Props
open Indigo.Serve Indigo.Spec Indigo.Router Indigo.Spec.Router

section
variable {σ : Type} {text : GoErr → Bytes} {env : Env Act} {ops : List (Op Act)} {rt : Runtime Act}

/-- All calls of a conversation: with its requests, or to tell that the connection is being closed. -/
private theorem conversation_visits {ρ : Type} {E : Setup σ ρ} {T : Nat} {remote tail : Bytes} {post} {env st d pre ws ss vs frames why}
    (h : Conversation E T remote tail post (Silence E) env st d pre ws ss vs frames why) :
    ∀ v ∈ vs, (∃ s ∈ ss, ∃ e after seen world a left, v = .request seen world a left ∧ Delivered E T remote post e s after seen world) ∨
      ∃ seen a left, v = .error seen closeError a left := by
  induction h with
  | done he =>
    obtain ⟨seen, a, l, rfl, -⟩ := he
    intro v hv
    simp only [List.mem_singleton] at hv
    exact .inr ⟨_, _, _, hv⟩
  | panicked hd | hijacked hd | broken hd =>
    intro v hv
    simp only [List.mem_singleton] at hv
    exact .inl ⟨_, by simp, _, _, _, _, _, _, hv, hd⟩
  | closed hd =>
    intro v hv
    simp only [List.mem_cons, List.not_mem_nil, or_false] at hv
    rcases hv with hv | hv
    · exact .inl ⟨_, by simp, _, _, _, _, _, _, hv, hd⟩
    · exact .inr ⟨_, _, _, hv⟩
  | next hd _ _ _ _ _ ih =>
    intro v hv
    rcases List.mem_cons.1 hv with hv | hv
    · exact .inl ⟨_, by simp, _, _, _, _, _, _, hv, hd⟩
    · rcases ih v hv with ⟨s, hs, h⟩ | h
      · exact .inl ⟨s, by simp [hs], h⟩
      · exact .inr h

/-- **C89.** The server has any number of clients, served by as many goroutines, which use one and the same router: before each call of the router for the client in question, others have
done with it anything they can do (`C79_guarantee`: they change its buffer for TRACE, and nothing else). The program of the user, the requests of this client and the handlers are those of
`C87_program`. Then what comes back to this client is what would come back if there was nobody else: one response for each of its requests, in order, and nothing else; the i-th one is what the handler
to be called gives for the i-th request, and for the body sent with it. -/
theorem C89_many_clients (E : Setup σ (Runtime Act)) (dec : DecodesChunked E.P) (router : E.router = Router.impl E.F .panic) (cfg : Config)
    (size : cfg.bodyMaxSize < 2 ^ 64) (defaults : DefaultsOK E.F (cfg.defaultHeaders.getD [])) (enc : EncToken) (remote : Bytes)
    (ops : List (Op Act)) (made : make E.F text env ops = some rt) (L : Lookup) (good : Sending → Prop)
    (lookup : (L = .static ops ∧ Static ops) ∨
      ∃ ts, L = .templates ts ∧ Templates ops ts ∧ (∀ s, good s → ∃ p, s.path = SLASH :: p) ∧
        ∀ r p, r.Path = SLASH :: p → ∃ p', (mutated ops r).Path = SLASH :: p')
    (mutators : ∀ r, Untouched r (mutated ops r)) (polite : AllHandlers E.F text ops (Polite E))
    (answers : ∀ remote post e s after seen world h r, SendableWith E.F cfg s → good s →
      Delivered E cfg.maxEncodingTokens.toNat remote post e s after seen world → Chosen E.F text ops L (arriving ops seen) h r →
      ∃ f r' left, (h r).run E.P E.maxAlloc ⟨world.1, world.2, false⟩ = (some (f, r'), left) ∧
        Readable (cfg.defaultHeaders.getD []) seen.Proto f)
    (buffer : cfg.responseBuffSize < 16 ^ 8) (cl : Client) (quiet : Quiet cl) (writes : NoWriteError cl) (post : List (Bytes × Option GoErr)) (silent : Silent post)
    (ss : List Sending) (ok : ∀ s ∈ ss, SendableWith E.F cfg s ∧ s.head.method ≠ .TRACE ∧ good s) (stream : cl.stream = ss.flatMap Sending.bytes)
    (upgrade : ∀ s ∈ ss, s.head.last b!"upgrade" = none) (keep : ∀ s ∈ ss.dropLast, KeepsOpen s.head)
    (changes : List (Runtime Act → Runtime Act)) (others : ∀ change ∈ changes, ∀ x, ∃ b, change x = { x with traceBuff := b }) :
    ∃ frames msgs,
      (serve (interfered E) ((newConn E.P cfg enc remote rt (followedBy cl post)).on (rt, changes))).1.client.written = cl.written ++ frames ∧
      readReplies (ss.map (fun s => s.head.method)) frames.flatten = some msgs ∧ msgs.length = ss.length ∧
      ∀ i : Nat, ∀ (s : Sending) (m : Msg), ss[i]? = some s → msgs[i]? = some m →
        ∃ e after seen world h r f r' left, Delivered E cfg.maxEncodingTokens.toNat remote post e s after seen world ∧
          Chosen E.F text ops L (arriving ops seen) h r ∧
          (h r).run E.P E.maxAlloc ⟨world.1, world.2, false⟩ = (some (f, r'), left) ∧
          versionName seen.Proto = some m.version ∧ m.code = f.Code ∧ m.rest = (if s.head.method = .HEAD then [] else sentBody f) ∧
          SaysFields (cfg.defaultHeaders.getD []) f m.fields := by
  obtain ⟨c, why, vs, fs, h1, h2, _, h3⟩ := C22_pipelining E dec cfg size enc remote rt (program_tame router made mutators polite) cl quiet post silent ss
    (fun s hs => (ok s hs).1) stream
  obtain ⟨st, h⟩ := C79_interference_partial made E router (newConn E.P cfg enc remote rt (followedBy cl post)) rfl changes others (by
    rw [h1]
    intro v hv
    dsimp only at hv
    rw [h2] at hv
    rcases conversation_visits h3 v hv with ⟨s, hs, e, after, seen, world, a, left, rfl, hd⟩ | ⟨seen, a, left, rfl⟩
    · show (mutated ops seen).Method ≠ .TRACE
      rw [(mutators seen).method, hd.carries.method]
      exact (ok s hs).2.1
    · show ¬ (_ ∧ closeError = .http Status.ErrMethodNotAllowed)
      rw [show (closeError = GoErr.http Status.ErrMethodNotAllowed) = False from by decide]
      exact fun h => h.2)
  rw [h]
  exact C87_program E dec router cfg size defaults enc remote ops made L good lookup mutators polite answers buffer cl quiet writes post silent ss ok stream
    upgrade keep

/-- C89: the hypotheses are those of `C87_program`, which are met by the program `diner` (see there), and others who TRACE: here they do so twice. The client
reads what it reads if it is alone. -/
example : ∃ cl : Client, Quiet cl ∧ NoWriteError cl ∧ cl.stream = [posted, chunked, gotten].flatMap Sending.bytes ∧
    (∀ change ∈ [fun (x : Runtime Act) => { x with traceBuff := b!"TRACE / HTTP/1.1" }, fun x => { x with traceBuff := x.traceBuff ++ b!"Cookie: a" }],
      ∀ x, ∃ b, change x = { x with traceBuff := b }) ∧
    (readReplies [.POST, .POST, .GET]
      (serve (interfered dinerSetup) ((newConn dinerSetup.P Config.default 1 b!"1.2.3.4" dinerRouter (followedBy cl [])).on (dinerRouter,
        [fun (x : Runtime Act) => { x with traceBuff := b!"TRACE / HTTP/1.1" }, fun x => { x with traceBuff := x.traceBuff ++ b!"Cookie: a" }]))).1.client.written.flatten).map
      (List.map (fun m => (m.code, m.rest))) = some [(200, b!"a!"), (200, b!"soup!"), (400, b!"!")] := by
  refine ⟨arrive [posted.bytes.take 41, posted.bytes.drop 41 ++ chunked.bytes.take 55, chunked.bytes.drop 55 ++ gotten.bytes],
    ?_, by simp [NoWriteError, arrive], by decide +kernel, ?_, by decide +kernel⟩
  · unfold Quiet; decide +kernel
  · intro change h x
    simp only [List.mem_cons, List.not_mem_nil, or_false] at h
    rcases h with rfl | rfl <;> exact ⟨_, rfl⟩

end

end Indigo.Props
