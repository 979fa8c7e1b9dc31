/-
C79 Connections do not interfere.
-/
import Verif.Proofs.Concurrent
import Verif.Proofs.RouterAll
import Verif.Props.Router
import Verif.Props.ServeWitness

namespace Indigo.Props
open Indigo.Router Indigo.Spec.Router Indigo.Serve

section
variable {m : Type → Type} [Monad m] {F : Fold} {text : GoErr → Bytes} {env : Env m} {ops : List (Op m)} {rt : Runtime m}

private theorem onError'_buff (F : Fold) (rt : Runtime m) (b b' : Bytes) (req : Request) (e : GoErr)
    (h : ¬ (req.Method = .TRACE ∧ e = .http Status.ErrMethodNotAllowed)) :
    (Runtime.onError' F { rt with traceBuff := b } req e).1 = (Runtime.onError' F { rt with traceBuff := b' } req e).1 := by
  unfold Runtime.onError'
  rw [if_neg h, if_neg h]
  dsimp only
  split
  · rfl
  · split
    · have : Runtime.retrieveErrorHandler { rt with traceBuff := b } = Runtime.retrieveErrorHandler { rt with traceBuff := b' } := rfl
      rw [this]
      split <;> rfl
    · rfl

private theorem dispatch_buff (F : Fold) (rt : Runtime m) (b b' : Bytes) (req : Request) (ep : Endpoint m)
    (h : req.Method ≠ .TRACE) :
    (Runtime.dispatch F { rt with traceBuff := b } req ep).1 = (Runtime.dispatch F { rt with traceBuff := b' } req ep).1 := by
  unfold Runtime.dispatch
  dsimp only
  split
  · exact onError'_buff F rt b b' _ _ (fun hh => h hh.1)
  · rfl

private theorem onRequest_buff (F : Fold) (rt : Runtime m) (b b' : Bytes) (panicked : m (Fields × Request)) (req : Request)
    (h : (Runtime.runMutators rt req).Method ≠ .TRACE) :
    ((Router.impl F panicked).onRequest { rt with traceBuff := b } req).1 =
      ((Router.impl F panicked).onRequest { rt with traceBuff := b' } req).1 := by
  unfold Router.impl Runtime.onRequest
  have hm : ∀ b, Runtime.runMutators { rt with traceBuff := b } req = Runtime.runMutators rt req := fun _ => rfl
  dsimp only
  rw [hm b, hm b']
  generalize hr : ({ Runtime.runMutators rt req with Path := UriNormalize.normalize (Runtime.runMutators rt req).Path } : Request) = r
  have hr' : r.Method ≠ .TRACE := by rw [← hr]; exact h
  unfold Runtime.onRequest'
  dsimp only
  split
  · split
    · exact onError'_buff F rt b b' _ _ (fun hh => hr' hh.1)
    · exact dispatch_buff F rt b b' _ _ hr'
  · split
    · rfl
    · exact onError'_buff F rt b b' _ _ (fun hh => hr' hh.1)
    · exact dispatch_buff F rt b b' _ _ hr'

end

/-- The router is not asked to echo a TRACE request. -/
def NoTrace {σ : Type} (ops : List (Op Act)) : Visit σ → Prop
  | .request seen _ _ _ => (mutated ops seen).Method ≠ .TRACE
  | .error seen e _ _ => ¬ ((mutated ops seen).Method = .TRACE ∧ e = .http Status.ErrMethodNotAllowed)

section
variable {σ : Type} {F : Fold} {text : GoErr → Bytes} {env : Env Act} {ops : List (Op Act)} {rt : Runtime Act}

private theorem buffer_closed (hm : make F text env ops = some rt) (E : Setup σ (Runtime Act)) (hE : E.router = Router.impl F .panic) :
    Closed E (fun x => ∃ b, x = { rt with traceBuff := b }) := by
  have hb := built F text env ops rt hm
  constructor
  · rintro _ req ⟨b, rfl⟩
    rw [hE]
    rcases request_known hm (C41_always_one F text ops) b req with ⟨_, _, _, _, h⟩ | ⟨_, _, _, b', _, h⟩ | ⟨_, _, h⟩
    · exact ⟨b, by simp only [Router.impl, h]; rfl⟩
    · exact ⟨b', by simp only [Router.impl, h]; rfl⟩
    · exact ⟨b, by simp only [Router.impl, h]; rfl⟩
  · rintro _ req err ⟨b, rfl⟩
    rw [hE]
    rcases error_known hb (C41_always_one F text ops) b
      (Runtime.runMutators { rt with traceBuff := b } req) err with ⟨_, _, _, _, h⟩ | ⟨_, _, _, b', h⟩ | ⟨_, h⟩
    · exact ⟨b, by simp only [Router.impl, Runtime.onError, h]⟩
    · exact ⟨b', by simp only [Router.impl, Runtime.onError, h]⟩
    · exact ⟨b, by simp only [Router.impl, Runtime.onError, h]⟩

private theorem request_same (hm : make F text env ops = some rt) (E : Setup σ (Runtime Act)) (hE : E.router = Router.impl F .panic)
    (x y : Runtime Act) (req : Request) (hx : ∃ b, x = { rt with traceBuff := b }) (hy : ∃ b, y = { rt with traceBuff := b })
    (h : ∃ w a l, NoTrace (σ := σ) ops (.request req w a l)) : (E.router.onRequest x req).1 = (E.router.onRequest y req).1 := by
  obtain ⟨b, rfl⟩ := hx
  obtain ⟨b', rfl⟩ := hy
  obtain ⟨w, a, l, hq⟩ := h
  rw [hE]
  refine onRequest_buff F rt b b' _ req ?_
  rw [Runtime.runMutators, (built F text env ops rt hm).mutators]
  exact hq

private theorem error_same (hm : make F text env ops = some rt) (E : Setup σ (Runtime Act)) (hE : E.router = Router.impl F .panic)
    (x y : Runtime Act) (req : Request) (e : GoErr) (hx : ∃ b, x = { rt with traceBuff := b }) (hy : ∃ b, y = { rt with traceBuff := b })
    (h : ∃ a l, NoTrace (σ := σ) ops (.error req e a l)) : (E.router.onError x req e).1 = (E.router.onError y req e).1 := by
  obtain ⟨b, rfl⟩ := hx
  obtain ⟨b', rfl⟩ := hy
  obtain ⟨a, l, hq⟩ := h
  rw [hE]
  have hm' : ∀ b, Runtime.runMutators { rt with traceBuff := b } req = Runtime.runMutators rt req := fun _ => rfl
  simp only [Router.impl, Runtime.onError, hm']
  refine onError'_buff F rt b b' _ e ?_
  rw [Runtime.runMutators, (built F text env ops rt hm).mutators]
  exact hq

/-- C79: what connections do to the router they share. Whatever a call of it is about, nothing but the buffer for TRACE is other than before. -/
theorem C79_guarantee (hm : make F text env ops = some rt) (b : Bytes) (req : Request) (e : GoErr) :
    (∃ b', ((Router.impl F Act.panic).onRequest { rt with traceBuff := b } req).2 = { rt with traceBuff := b' }) ∧
    (∃ b', ((Router.impl F Act.panic).onError { rt with traceBuff := b } req e).2 = { rt with traceBuff := b' }) :=
  have h := buffer_closed (σ := Unit) hm ⟨F, ⟨(), fun _ _ _ => ((), [], [], none), fun _ d _ => ⟨d, by simp, id⟩⟩, 0, Router.impl F .panic⟩ rfl
  ⟨h.request _ req ⟨b, rfl⟩, h.error _ req e ⟨b, rfl⟩⟩

/-- **C79 (part)**, at any moment. While a connection is being served, other goroutines change the router whenever they like: before each call of the
router by this connection, its buffer for TRACE has become anything (and nothing else, by `C79_guarantee`). If the client sends no TRACE requests, then serving the connection
comes to the same end, and to the same state: everything the client has been sent, everything its handlers have seen. Missing: TRACE. -/
theorem C79_interference_partial (hm : make F text env ops = some rt) (E : Setup σ (Runtime Act)) (hE : E.router = Router.impl F .panic)
    (c : Conn σ (Runtime Act)) (hc : c.router = rt) (changes : List (Runtime Act → Runtime Act))
    (only : ∀ change ∈ changes, ∀ x, ∃ b, change x = { x with traceBuff := b }) (quiet : ∀ v ∈ (serve E c).1.visits, NoTrace ops v) :
    ∃ router, serve (interfered E) (c.on (rt, changes)) = ((serve E c).1.on router, (serve E c).2) := by
  have hclosed := buffer_closed hm E hE
  let C : Runtime Act → Prop := fun x => ∃ b, x = { rt with traceBuff := b }
  have good : ∀ (fs : List (Runtime Act → Runtime Act)), (∀ f ∈ fs, ∀ x, ∃ b, f x = { x with traceBuff := b }) → ∀ x, C x → C ((fs.head?.getD id) x) := by
    intro fs h x hx
    cases fs with
    | nil => exact hx
    | cons f fs =>
      obtain ⟨b, rfl⟩ := hx
      obtain ⟨b', h⟩ := h f (by simp) { rt with traceBuff := b }
      exact ⟨b', h⟩
  have tails : ∀ (fs : List (Runtime Act → Runtime Act)), (∀ f ∈ fs, ∀ x, ∃ b, f x = { x with traceBuff := b }) → ∀ f ∈ fs.tail, ∀ x, ∃ b, f x = { x with traceBuff := b } :=
    fun fs h f hf => h f (List.mem_of_mem_tail hf)
  have ag : Agrees E (interfered E).router (fun s y => C s.1 ∧ C y ∧ ∀ f ∈ s.2, ∀ x, ∃ b, f x = { x with traceBuff := b }) (NoTrace ops) := by
    constructor
    · rintro x y req ⟨h1, h2, h3⟩ h
      exact request_same hm E hE _ y req (good x.2 h3 _ h1) h2 h
    · rintro x y req e ⟨h1, h2, h3⟩ h
      exact error_same hm E hE _ y req e (good x.2 h3 _ h1) h2 h
    · rintro x y req ⟨h1, h2, h3⟩ -
      exact ⟨hclosed.request _ req (good x.2 h3 _ h1), hclosed.request _ req h2, tails _ h3⟩
    · rintro x y req e ⟨h1, h2, h3⟩ -
      exact ⟨hclosed.error _ req e (good x.2 h3 _ h1), hclosed.error _ req e h2, tails _ h3⟩
  obtain ⟨h1, h2⟩ := serve_like ag (a := c.on (rt, changes)) (b := c) ⟨⟨⟨rt.traceBuff, rfl⟩, ⟨rt.traceBuff, hc⟩, only⟩, rfl⟩ quiet
  refine ⟨(serve (interfered E) (c.on (rt, changes))).1.router, ?_⟩
  exact Prod.ext h2.same h1

end

/-- **C79 (part).** Any number of connections, served at the same time by one router, under any schedule. If a client
sends no TRACE requests, then at every moment its connection is in exactly the state - everything it has been sent,
everything its handlers have seen - in which it would be if it were alone, whatever the other clients do: after as many
iterations as have been done for it, and fewer only if the process has died of a panic.
Missing: TRACE. -/
theorem C79_isolated_partial {σ : Type} {F : Fold} {text : GoErr → Bytes} {env : Env Act} {ops : List (Op Act)}
    {rt : Runtime Act} (hm : make F text env ops = some rt)
    (E : Setup σ (Runtime Act)) (hE : E.router = Router.impl F .panic)
    (conns : List (Conn σ (Runtime Act))) (schedule : List Nat) (i : Nat) (c : Conn σ (Runtime Act)) (hi : conns[i]? = some c)
    (hc : c.router = rt)
    (quiet : ∀ n, ∀ v ∈ (alone E { conn := c } n).conn.visits, NoTrace ops v) :
    let crowd := (Crowd.new rt conns).run E schedule
    ∃ n now, crowd.conns[i]? = some now ∧ n ≤ schedule.count i ∧ (¬ crowd.crashed → n = schedule.count i) ∧
      now.ended = (alone E { conn := c } n).ended ∧
      now.conn = { (alone E { conn := c } n).conn with router := now.conn.router } := by
  intro crowd
  have hclosed := buffer_closed hm E hE
  obtain ⟨n, now, h1, -, h2, h3, h4, h5⟩ := run_alone (E := E) (Quiet := NoTrace ops) hclosed
    (request_same hm E hE) (error_same hm E hE)
    i { conn := c } quiet schedule (Crowd.new rt conns) 0 { conn := c } ⟨rt.traceBuff, rfl⟩
    (by simp [Crowd.new, hi]) rfl rfl ⟨rt.traceBuff, hc⟩
  exact ⟨n, now, h1, by omega, fun h => by have := h5 h; omega, h3, h4⟩

/-! Two connections to a router with one route. -/

private def home : List (Op Act) := [.route 0 .GET b!"/" report []]

private def E0 : Setup Spec.CS (Runtime Act) :=
  { F := Fold.ascii, P := Spec.refParser, maxAlloc := 2 ^ 32, router := Router.impl Fold.ascii .panic }

/-- What is written to each client if the clients send these segments. -/
private def written (a b : List Bytes) (schedule : List Nat) : Option (List (List Bytes)) :=
  (make Fold.ascii (fun _ => []) sampleEnv home).map (fun rt =>
    let conn := fun segments => newConn E0.P Config.default 0 [] rt (arrive segments)
    ((Crowd.new rt [conn a, conn b]).run E0 schedule).conns.map (fun c => c.conn.client.written))

example : written [b!"GET / HTTP/1.1\r\n\r\n"] [b!"GET / HTTP/1.1\r\n", b!"\r\n"] [1, 0, 1] = some [
    [b!"HTTP/1.1 200 OK\r\nAccept-Encodings: identity\r\nContent-Type: text/html\r\nContent-Length: 2\r\n\r\n/ "],
    [b!"HTTP/1.1 200 OK\r\nAccept-Encodings: identity\r\nContent-Type: text/html\r\nContent-Length: 2\r\n\r\n/ "]] := by
  decide +kernel

instance {σ : Type} (ops : List (Op Act)) : (v : Visit σ) → Decidable (NoTrace ops v)
  | .request _ _ _ _ => by unfold NoTrace; infer_instance
  | .error _ _ _ _ => by unfold NoTrace; infer_instance

private def homeRouter : Runtime Act := (make Fold.ascii (fun _ => []) sampleEnv home).get (by decide +kernel)

private def visitor : Served Spec.CS (Runtime Act) :=
  { conn := newConn E0.P Config.default 0 [] homeRouter (arrive [b!"GET / HTTP/1.1\r\n\r\n"]) }

/-- The hypotheses of the theorem are met by a client sending a GET request (its connection ends in the second
iteration), next to any other client. -/
example : make Fold.ascii (fun _ => []) sampleEnv home = some homeRouter ∧ visitor.conn.router = homeRouter ∧
    ∀ n, ∀ v ∈ (alone E0 visitor n).conn.visits, NoTrace home v := by
  refine ⟨by simp [homeRouter], rfl, ?_⟩
  have h0 : ∀ v ∈ (alone E0 visitor 0).conn.visits, NoTrace home v := by decide +kernel
  have h1 : ∀ v ∈ (alone E0 visitor 1).conn.visits, NoTrace home v := by decide +kernel
  have h2 : ∀ v ∈ (alone E0 visitor 2).conn.visits, NoTrace home v := by decide +kernel
  have h3 : (alone E0 visitor 2).ended = some .readFailed := by decide +kernel
  have h4 : ∀ n, alone E0 visitor (2 + n) = alone E0 visitor 2 := by
    intro n
    induction n with
    | zero => rfl
    | succ n ih =>
      rw [show 2 + (n + 1) = (2 + n) + 1 by omega, alone]
      dsimp only
      rw [ih, h3]
  intro n
  match n with
  | 0 => exact h0
  | 1 => exact h1
  | n + 2 => rw [show n + 2 = 2 + n by omega, h4]; exact h2

/-- C79 is false: the answer to a TRACE request of one client has the whole TRACE request of another one in it. -/
theorem C79_trace_violation :
    written [b!"TRACE / HTTP/1.1\r\nCookie: secret=1\r\n\r\n"] [b!"TRACE / HTTP/1.1\r\n\r\n"] [1] = some [[],
      [b!"HTTP/1.1 200 OK\r\nAccept-Encodings: identity\r\nContent-Type: message/http\r\nContent-Length: 39\r\n\r\nTRACE / HTTP/1.1\r\nContent-Length: 0\r\n\r\n"]] ∧
    (written [b!"TRACE / HTTP/1.1\r\nCookie: secret=1\r\n\r\n"] [b!"TRACE / HTTP/1.1\r\n\r\n"] [0, 1]).bind (·[1]?) = some
      [b!"HTTP/1.1 200 OK\r\nAccept-Encodings: identity\r\nContent-Type: message/http\r\nContent-Length: 96\r\n\r\nTRACE / HTTP/1.1\r\nCookie: secret=1\r\nContent-Length: 0\r\n\r\nTRACE / HTTP/1.1\r\nContent-Length: 0\r\n\r\n"] := by
  decide +kernel

end Indigo.Props
