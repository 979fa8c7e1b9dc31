/-
C50: hijacked connections.
-/
import Verif.Props.Serve

namespace Indigo.Props
open Indigo.Serve Indigo.Spec
variable {σ ρ : Type}

/-- What one iteration does when a handler has hijacked the connection: it is the last one, and the connection is as the
handler left it. -/
def LeftAlone (before : List (Visit σ)) (r : Conn σ ρ × Option Ended) : Prop :=
  ∃ vs, r.1.visits = before ++ vs ∧
    (r.2 = none → r.1.req.wasHijacked = false) ∧
    (∀ i seen world ans left, vs[i]? = some (Visit.request seen world ans left) → left.hijacked = true →
      i + 1 = vs.length ∧ r.1.client = left.client ∧ r.2 = some (if ans.isSome then .hijacked else .panicked)) ∧
    (r.2 = some .hijacked → ∃ seen world ans left, vs.getLast? = some (.request seen world (some ans) left) ∧
      left.hijacked = true ∧ r.1.client = left.client)

theorem run_bind (P : ChunkedParser σ) (M : Nat) {α β : Type} (x : Act α) (f : α → Act β) : ∀ w : Act.World σ,
    (x.bind f).run P M w = match x.run P M w with
      | (some a, w) => (f a).run P M w
      | (none, w) => (none, w) := by
  induction x with
  | ret a => intro w; rfl
  | body k next ih => intro w; simp only [Act.bind, Act.run]; exact ih _ _
  | hijack next ih => intro w; simp only [Act.bind, Act.run]; exact ih _ _
  | read next ih => intro w; simp only [Act.bind, Act.run]; split <;> exact ih _ _ _
  | unread b next ih => intro w; simp only [Act.bind, Act.run]; exact ih _
  | write b next ih => intro w; simp only [Act.bind, Act.run]; split <;> exact ih _ _
  | panic => intro w; rfl

theorem closing_visits (E : Setup σ ρ) (c : Conn σ ρ) (why : Ended) (hw : why ≠ .hijacked) :
    ∃ seen e ans left, (closing E c why).1.visits = c.visits ++ [.error seen e ans left] ∧
      (closing E c why).2 ≠ some .hijacked ∧ (closing E c why).2 ≠ none := by
  unfold closing onError
  dsimp only
  rcases h : (E.router.onError c.router c.req (GoErr.http Status.ErrCloseConnection)).1.run E.P E.maxAlloc c.world with ⟨ans, w⟩
  cases ans with
  | none => exact ⟨_, _, _, _, rfl, by simp, by simp⟩
  | some a => exact ⟨_, _, _, _, rfl, by simp [hw], by simp⟩

theorem rejecting_visits (E : Setup σ ρ) (c : Conn σ ρ) (e : Status.HTTPError) :
    ∃ seen e' ans left, (rejecting E c e).1.visits = c.visits ++ [.error seen e' ans left] ∧
      (rejecting E c e).2 ≠ some .hijacked ∧ (rejecting E c e).2 ≠ none := by
  unfold rejecting onError
  dsimp only
  rcases h : (E.router.onError c.router c.req (GoErr.http e)).1.run E.P E.maxAlloc c.world with ⟨ans, w⟩
  cases ans with
  | none => exact ⟨_, _, _, _, rfl, by simp, by simp⟩
  | some a => exact ⟨_, _, _, _, rfl, by dsimp only; split <;> simp, by simp⟩

theorem leftAlone_error {before : List (Visit σ)} {r : Conn σ ρ × Option Ended} {vs0 : List (Visit σ)} {seen e ans left}
    (hv : r.1.visits = before ++ (vs0 ++ [Visit.error seen e ans left])) (h1 : r.2 ≠ some .hijacked) (h2 : r.2 ≠ none)
    (h3 : ∀ (i : Nat) (seen : Request) (world : BC σ) (ans : Option (Fields × Request)) (left : Act.World σ),
      vs0[i]? = some (Visit.request seen world ans left) → left.hijacked = false) :
    LeftAlone before r := by
  refine ⟨_, hv, fun h => absurd h h2, ?_, fun h => absurd h h1⟩
  intro i seen' world' ans' left' hi hj
  rw [List.getElem?_append] at hi
  split at hi
  · rw [h3 i _ _ _ _ hi] at hj; cases hj
  · rename_i hge
    cases hk : i - vs0.length with
    | zero => rw [hk] at hi; cases hi
    | succ k => rw [hk] at hi; simp at hi

theorem step_leftAlone (E : Setup σ ρ) (c : Conn σ ρ) (hc : c.req.wasHijacked = false) : LeftAlone c.visits (step E c) := by
  unfold step
  rcases hr : c.client.read with ⟨⟨data, err⟩, cl⟩
  cases err with
  | some x =>
    dsimp only
    obtain ⟨_, _, _, _, h1, h2, h3⟩ := closing_visits E { c with client := cl } .readFailed (by simp)
    exact leftAlone_error (vs0 := []) h1 h2 h3 (by simp)
  | none =>
    dsimp only
    have hrest := Parser.feed_rest E.F [data] c.parser
    rcases hp : Parser.parse E.F c.parser data with ⟨p', res⟩
    have hh : p'.req.wasHijacked = false := by
      have := hrest.rest
      simp only [Parser.feed, hp] at this
      have hq : Parser.restOf p'.req = Parser.restOf c.parser.req := by
        cases res <;> simpa [Parser.feed] using this
      simp only [Parser.restOf, Prod.mk.injEq] at hq
      rw [hq.2.2.2.2.1]; exact hc
    cases res with
    | pending =>
      dsimp only
      exact ⟨[], by simp, fun _ => hh, by simp, by simp⟩
    | panic => dsimp only; exact ⟨[], by simp, by simp, by simp, by simp⟩
    | error e =>
      dsimp only
      obtain ⟨_, _, _, _, h1, h2, h3⟩ := rejecting_visits E { c with parser := p', client := cl } e
      exact leftAlone_error (vs0 := []) h1 h2 h3 (by simp)
    | completed extra =>
      dsimp only
      unfold headersCompleted
      have hpre : ∀ c : Conn σ ρ, (preResponse E c).2.visits = c.visits ∧ (preResponse E c).2.parser = c.parser := by
        intro c; unfold preResponse; split <;> exact ⟨rfl, rfl⟩
      obtain ⟨hv, hq⟩ := hpre { c with parser := p', client := cl }
      rcases hpr : preResponse E { c with parser := p', client := cl } with ⟨version, c1⟩
      rw [hpr] at hv hq
      dsimp only at hv hq ⊢
      unfold onRequest
      dsimp only
      rcases hrun : (E.router.onRequest c1.router c1.req).1.run E.P E.maxAlloc
        ({ c1 with client := c1.client.unread extra, body := c1.body.initFor c1.req } : Conn σ ρ).world with ⟨ans, w⟩
      cases ans with
      | none =>
        refine ⟨[.request c1.req (c1.body.initFor c1.req, c1.client.unread extra) none w], ?_, by simp, ?_, by simp⟩
        · simp [Conn.after, hv]
        · intro i _ _ _ _ hi hj
          cases i with
          | zero => simp at hi; obtain ⟨_, _, rfl, rfl⟩ := hi; simp [Conn.after]
          | succ i => simp at hi
      | some a =>
        obtain ⟨f, req⟩ := a
        dsimp only
        unfold respond
        split
        · rename_i hj
          refine ⟨[.request c1.req (c1.body.initFor c1.req, c1.client.unread extra) (some (f, req)) w], ?_, by simp, ?_, ?_⟩
          · simp [Conn.after, hv]
          · intro i _ _ _ _ hi hj
            cases i with
            | zero => simp at hi; obtain ⟨_, _, rfl, rfl⟩ := hi; simp [Conn.after]
            | succ i => simp at hi
          · intro _
            exact ⟨_, _, _, _, rfl, by simpa [Conn.after] using hj, rfl⟩
        · rename_i hj
          have hj' : w.hijacked = false := by simpa [Conn.after] using hj
          have hvs0 : ∀ (i : Nat) (seen : Request) (world : BC σ) (ans : Option (Fields × Request)) (left : Act.World σ), [Visit.request c1.req (c1.body.initFor c1.req, c1.client.unread extra) (some (f, req)) w][i]? =
              some (Visit.request seen world ans left) → left.hijacked = false := by
            intro i _ _ _ _ hi
            cases i with
            | zero => simp at hi; obtain ⟨_, _, _, rfl⟩ := hi; exact hj'
            | succ i => simp at hi
          dsimp only
          split
          · refine ⟨[.request c1.req (c1.body.initFor c1.req, c1.client.unread extra) (some (f, req)) w], ?_, by simp, ?_, by simp⟩
            · simp [Conn.after, hv]
            · intro i _ _ _ _ hi hk
              rw [hvs0 i _ _ _ _ hi] at hk; cases hk
          · obtain ⟨x1, x2, x3, x4, h1, h2, h3⟩ := closing_visits E _ Ended.writeFailed (by simp)
            refine leftAlone_error (seen := x1) (e := x2) (ans := x3) (left := x4)
                (vs0 := [.request c1.req (c1.body.initFor c1.req, c1.client.unread extra) (some (f, req)) w]) ?_ h2 h3 hvs0
            rw [h1]; simp [Conn.after, hv]
          · unfold clearing
            dsimp only
            split
            · obtain ⟨x1, x2, x3, x4, h1, h2, h3⟩ := closing_visits E _ Ended.clearFailed (by simp)
              refine leftAlone_error (seen := x1) (e := x2) (ans := x3) (left := x4)
                (vs0 := [.request c1.req (c1.body.initFor c1.req, c1.client.unread extra) (some (f, req)) w]) ?_ h2 h3 hvs0
              rw [h1]; simp [Conn.after, hv]
            · refine ⟨[.request c1.req (c1.body.initFor c1.req, c1.client.unread extra) (some (f, req)) w], ?_, ?_, ?_, by simp⟩
              · simp [Conn.after, hv]
              · intro _; simp [Conn.after, Request.reset, hj']
              · intro i _ _ _ _ hi hk
                rw [hvs0 i _ _ _ _ hi] at hk; cases hk

theorem serveLoop_leftAlone (E : Setup σ ρ) : ∀ (n : Nat) (c : Conn σ ρ), c.req.wasHijacked = false →
    LeftAlone c.visits (serveLoop E n c) := by
  intro n
  induction n with
  | zero => intro c hc; exact ⟨[], by simp [serveLoop], fun _ => hc, by simp, by simp [serveLoop]⟩
  | succ n ih =>
    intro c hc
    have hs := step_leftAlone E c hc
    unfold serveLoop
    rcases h : step E c with ⟨c1, why⟩
    rw [h] at hs
    cases why with
    | some why => exact hs
    | none =>
      obtain ⟨vs, h1, h2, h3, _⟩ := hs
      obtain ⟨vs', k1, k2, k3, k4⟩ := ih c1 (h2 rfl)
      dsimp only at h1 h3 ⊢
      refine ⟨vs ++ vs', by rw [k1, h1, List.append_assoc], k2, ?_, ?_⟩
      · intro i seen world ans left hi hj
        rw [List.getElem?_append] at hi
        split at hi
        · have := (h3 i _ _ _ _ hi hj).2.2; cases this
        · obtain ⟨e1, e2, e3⟩ := k3 _ _ _ _ _ hi hj
          refine ⟨?_, e2, e3⟩
          simp only [List.length_append]; omega
      · intro hw
        obtain ⟨seen, world, ans, left, e1, e2⟩ := k4 hw
        refine ⟨seen, world, ans, left, ?_, e2⟩
        rw [List.getLast?_append, e1]; rfl

/-- **C50.** Once a handler has hijacked the connection, the call of this handler is the last one, and the server reads and
writes nothing after it: at the end the connection is as the handler has left it. This is for every connection, whatever
is sent on it. -/
theorem C50_left_alone (E : Setup σ ρ) (cfg : Config) (enc : EncToken) (remote : Bytes) (st : ρ) (cl : Client)
    (i : Nat) (seen : Request) (world : BC σ) (ans : Option (Fields × Request)) (left : Act.World σ)
    (call : (serve E (newConn E.P cfg enc remote st cl)).1.visits[i]? = some (.request seen world ans left))
    (hijack : left.hijacked = true) :
    let r := serve E (newConn E.P cfg enc remote st cl)
    i + 1 = r.1.visits.length ∧ r.1.client = left.client ∧ r.2 = some (if ans.isSome then .hijacked else .panicked) := by
  obtain ⟨vs, h1, _, h3, _⟩ := serveLoop_leftAlone E ((newConn E.P cfg enc remote st cl).client.size + 1)
    (newConn E.P cfg enc remote st cl) rfl
  have hv : (serve E (newConn E.P cfg enc remote st cl)).1.visits = vs := by unfold serve; rw [h1]; rfl
  rw [hv] at call
  have := h3 i seen world ans left call hijack
  dsimp only
  rw [hv]
  exact this

/-- **C50.** The bytes which follow the request are there for the hijacker. A handler called with a request of a
conversation (see `C22_each_its_own`) first does `pre`, whatever this is, without hijacking the connection, and then calls
`Hijack`: this succeeds, nothing has been written, and what the handler finds on the connection is exactly what comes
after the body. -/
theorem C50_rest_readable (E : Setup σ ρ) {T : Nat} {remote : Bytes} {post : List (Bytes × Option GoErr)} {env : Environment}
    {s : Sending} {after : Bytes} {seen : Request} {world : BC σ} (h : Delivered E T remote post env s after seen world)
    {α β : Type} (pre : Act α) (a : α) (w : Act.World σ)
    (run : pre.run E.P E.maxAlloc { body := world.1, client := world.2, hijacked := false } = (some a, w))
    (notYet : w.hijacked = false) :
    ∃ (b : Body σ) (c : Client), c.stream = after ∧ Quiet c ∧ c.written = world.2.written ∧
      ∀ next : α → Option GoErr → Act β,
        (pre.bind (fun a => .hijack (next a))).run E.P E.maxAlloc { body := world.1, client := world.2, hijacked := false } =
          (next a none).run E.P E.maxAlloc { body := b, client := followedBy c post, hijacked := true } := by
  obtain ⟨ds, b0, c0, h1, _, h3, h4, h5⟩ := h.body
  have hl : Body.Left E.P b0.maxBodyLen after post (world.1, world.2) := ⟨ds, b0, c0, h1, h3, h4, h5, rfl⟩
  obtain ⟨g1, g2, _⟩ := run_left E.P E.maxAlloc pre { body := world.1, client := world.2, hijacked := false } hl (by rw [run]; exact notYet)
  rw [run] at g1 g2
  obtain ⟨b, c, k1, k2, k3, _, _, k6, _⟩ := Body.left_discard E.P _ _ _ w.body w.client g1
  refine ⟨b, c, k2, k3, by rw [k6]; exact g2, ?_⟩
  intro next
  rw [run_bind, run]
  dsimp only [Act.run]
  rw [k1, notYet]
  rfl

end Indigo.Props
