/-
C46, C47, C48, C72, C73: the application object, its listeners, and shutting it down.
-/
import Verif.Proofs.Address
import Verif.Proofs.App
import Verif.Props.Address

namespace Indigo.App

/-! ### C46: OnStop -/

/-- **C46**, partial. In no interleaving is OnStop called while a listener has more than one connection, registered
or about to be; all others have been served to their end, closed and signed off. This stays so. (The full claim is that
there is none at all; the one is the connection which `Accept` had returned, but which was not yet signed on, when `run`
looked at the counter.) -/
theorem C46_at_most_one_partial (deadliners : List Bool) (s : State) (h : Reachable deadliners s) (hs : s.stopped = true) :
    ∀ srv ∈ s.servers, srv.closed = true ∧ srv.present + (if srv.holds then 1 else 0) ≤ 1 := by
  obtain ⟨ls, h⟩ := h
  intro srv hm
  obtain ⟨i, hi⟩ := List.getElem?_of_mem hm
  have hp := phase_run h
  have hd : s.main = .done := by
    have := hp.stops
    unfold State.stopped at hs
    cases hmm : s.main <;> rw [hmm] at this <;> simp_all
  have ho := orderly_run h i srv hi
  refine ⟨ho.closed (by rw [hd]; trivial), ?_⟩
  have := ho.waited (by rw [hd]; trivial)
  unfold Srv.load at this
  unfold Srv.holds
  cases hpc : srv.pc <;> simp [hpc] at this ⊢ <;> exact this

/-- **C46**, partial: if no accept loop holds a connection at the moment when all listeners are closed, there is no connection
when OnStop is called, nor later. -/
theorem C46_all_gone_partial (deadliners : List Bool) (s s' : State) (ls : List Label) (h : Reachable deadliners s)
    (closed : s.main = .stopWait 0) (none : ∀ srv ∈ s.servers, srv.holds = false) (run : s.run ls = some s')
    (hs : s'.stopped = true) : ∀ srv ∈ s'.servers, srv.present = 0 ∧ srv.holds = false := by
  obtain ⟨ls0, h0⟩ := h
  have hp : Phase s' := phase_run (ds := deadliners) (cs := []) (ls := ls0 ++ ls) (by rw [run_append, h0]; exact run)
  have hd : s'.main = .done := by
    have := hp.stops
    unfold State.stopped at hs
    cases hmm : s'.main <;> rw [hmm] at this <;> simp_all
  have base : ∀ i srv, s.servers[i]? = some srv → Settled s.main i srv := by
    intro i srv hi
    have ho := orderly_run h0 i srv hi
    refine ⟨ho.counts, ho.closed (by rw [closed]; trivial), ?_, ?_⟩
    · have := none srv (List.mem_of_getElem? hi)
      simpa [Srv.holds] using this
    · rw [closed]; intro hw; exact absurd hw (by simp [MainPc.waited])
  have key : ∀ i srv, s'.servers[i]? = some srv → Settled s'.main i srv :=
    run_induct (Inv := fun s => ∀ i srv, s.servers[i]? = some srv → Settled s.main i srv)
      (fun s l s' ho hs => settled_step hs ho) base run
  intro srv hm
  obtain ⟨i, hi⟩ := List.getElem?_of_mem hm
  have := key i srv hi
  exact ⟨this.waited (by rw [hd]; trivial), by simpa [Srv.holds] using this.empty⟩

/-- A schedule: one listener; a connection is accepted; `Stop` is called; the listener is closed, `run` sees the counter at 0
and calls OnStop; then the connection is signed on and served. -/
def late : List Label :=
  [.main, .main, .main, .loop 0 .conn, .loop 0 .conn, .call false, .recvCall 0, .main, .main, .main, .main, .main, .loop 0 .conn]

/-- **C46** is false: after OnStop has been called and `Serve` has returned, a connection is served. -/
theorem C46_served_after_OnStop_violation :
    ∃ s, Reachable [true] s ∧ s.stopped = true ∧ s.main = .done ∧ s.servers.map Srv.conns = [[.serving]] :=
  ⟨_, ⟨late, rfl⟩, by decide, by decide, by decide⟩

/-- C46, non-vacuity: a connection is served to its end, then OnStop is called. -/
def orderly : List Label :=
  [.main, .main, .main, .loop 0 .conn, .loop 0 .conn, .loop 0 .conn, .call true, .recvCall 0, .main, .main, .conn 0 0,
   .loop 0 .conn, .conn 0 0, .conn 0 0, .main, .main, .main, .main]

example : ∃ s, Reachable [true] s ∧ s.main = .stopWait 0 ∧ (∀ srv ∈ s.servers, srv.holds = false) ∧
    (∃ s', s.run [.main, .main, .main] = some s' ∧ s'.stopped = true) ∧ s.servers.map Srv.conns = [[.gone]] :=
  ⟨_, ⟨orderly, rfl⟩, by decide, by decide, ⟨_, rfl, by decide⟩, by decide⟩

/-! ### C47: Stop and GracefulStop -/

/-- **C47**, partial: a call returns if it is received, which is possible as soon as `run` has started all servers, and then `run`
stops them. -/
theorem C47_call_returns_partial (s : State) (i : Nat) (c : Call) (hr : s.main = .recv) (hc : s.calls[i]? = some c)
    (pending : c.returned = false) :
    ∃ s', s.step (.recvCall i) = some s' ∧ s'.calls[i]? = some { c with returned := true } ∧ s'.result = some c.msg ∧
      s'.main = (if c.msg = some (.http Status.ErrGracefulShutdown) then .pause 0 else .stop 0) := by
  refine ⟨_, by simp only [State.step, hr, hc, pending]; rfl, ?_, rfl, rfl⟩
  simp [State.received, get_lt hc]

/-- **C47**: the application is terminated once. What `Serve` returns is the first message received, and it has a cause: a
call of GracefulStop or Stop, or the error of a listener. Hooks are called at most once, OnStop when `Serve` is about to
return, after OnStart. -/
theorem C47_terminates_once (deadliners : List Bool) (ls ls' : List Label) (s s' : State)
    (h : (starting deadliners).run ls = some s) (h' : s.run ls' = some s') :
    s.onStarts ≤ 1 ∧ s.onStops ≤ s.onStarts ∧ (s.onStops = 1 ↔ s.main = .done) ∧
    (s.main = .done → s.result.isSome) ∧
    (∀ m, s.result = some m → s'.result = some m ∧
      ((Label.call true ∈ ls ∧ m = some (.http Status.ErrGracefulShutdown)) ∨
        (Label.call false ∈ ls ∧ m = some (.http Status.ErrShutdown)) ∨
        ∃ i e, Label.loop i (.error e) ∈ ls ∧ m = some e)) := by
  have hp := phase_run h
  refine ⟨?_, ?_, ?_, ?_, ?_⟩
  · have := hp.starts; cases hm : s.main <;> rw [hm] at this <;> simp_all
  · have h1 := hp.starts; have h2 := hp.stops; cases hm : s.main <;> rw [hm] at h1 h2 <;> simp_all
  · have h2 := hp.stops; cases hm : s.main <;> rw [hm] at h2 <;> simp_all
  · intro hm; have h2 := hp.result; rw [hm] at h2; exact h2
  · intro m hm
    have hl : s.main.late := by
      have := hp.result
      rw [hm] at this
      cases hmm : s.main <;> rw [hmm] at this <;> first | trivial | (simp at this)
    exact ⟨(late_run h' hl).1.trans hm, (causal_run h).result m hm⟩

/-- **C47**: in every execution, `run` makes at most 5 n + 8 steps, n being the number of listeners; -/
theorem C47_bounded (deadliners : List Bool) (ls : List Label) (s : State) (h : (starting deadliners).run ls = some s) :
    (ls.filter Label.isMain).length ≤ 5 * deadliners.length + 8 := by
  have := rank_run h (Nat.zero_le _)
  simp [starting, MainPc.rank] at this
  omega

/-- once it has received a message, nothing but connections which are still there keeps it from going on; -/
theorem C47_progress (deadliners : List Bool) (s : State) (h : Reachable deadliners s) (hr : s.result.isSome)
    (nd : s.main ≠ .done) : (∃ s', s.step .main = some s') ∨ ∃ srv ∈ s.servers, 0 < srv.present := by
  obtain ⟨ls, h⟩ := h
  have hp := phase_run h
  have ho := orderly_run h
  have hwait : ∀ (k : Nat) (srv : Srv), s.servers[k]? = some srv → srv.wg = 0 ∨ ∃ srv ∈ s.servers, 0 < srv.present := by
    intro k srv hk
    by_cases hz : srv.wg = 0
    · exact .inl hz
    · exact .inr ⟨srv, List.mem_of_getElem? hk, by rw [← (ho k srv hk).counts]; omega⟩
  have hres := hp.result
  rw [hr] at hres
  simp only [State.step, State.mainStep]
  cases hmm : s.main <;> rw [hmm] at hres nd <;> simp only [Bool.true_eq_false] at hres
  · left; dsimp only; split <;> exact ⟨_, rfl⟩
  · dsimp only
    split
    · rename_i srv hk
      rcases hwait _ srv hk with hz | hz
      · left; rw [if_pos hz]; exact ⟨_, rfl⟩
      · exact .inr hz
    · exact .inl ⟨_, rfl⟩
  · left; dsimp only; split <;> exact ⟨_, rfl⟩
  · dsimp only
    split
    · rename_i srv hk
      rcases hwait _ srv hk with hz | hz
      · left; rw [if_pos hz]; exact ⟨_, rfl⟩
      · exact .inr hz
    · exact .inl ⟨_, rfl⟩
  · exact .inl ⟨_, rfl⟩
  · exact absurd rfl nd

/-- and a connection can always go on to its end. -/
theorem C47_connections_end (s : State) (i j : Nat) (srv : Srv) (pc : ConnPc) (hs : s.servers[i]? = some srv)
    (hj : srv.conns[j]? = some pc) (hp : pc ≠ .gone) : ∃ s', s.step (.conn i j) = some s' := by
  simp only [State.step, hs, Srv.conn, hj]
  cases pc <;> first | exact ⟨_, rfl⟩ | exact absurd rfl hp

/-- **C47**: `Stop` and `GracefulStop` do block: in every execution, calls which are made after a first message was
received, or are pending then, never return. -/
theorem C47_later_calls_block_violation (deadliners : List Bool) (ls ls' : List Label) (s s' : State)
    (h : (starting deadliners).run ls = some s) (hr : s.result.isSome) (h' : s.run ls' = some s') :
    (∀ i : Nat, ∀ c : Call, s.calls[i]? = some c → c.returned = false → s'.calls[i]? = some c) ∧
    (∀ i : Nat, ∀ c : Call, s.calls.length ≤ i → s'.calls[i]? = some c → c.returned = false) := by
  have hp := phase_run h
  have hl : s.main.late := by
    have := hp.result
    rw [hr] at this
    cases hmm : s.main <;> rw [hmm] at this <;> first | trivial | (simp at this)
  obtain ⟨_, more, h1, h2⟩ := late_run h' hl
  constructor
  · intro i c hc _
    rw [h1, List.getElem?_append_left (get_lt hc)]; exact hc
  · intro i c hi hc
    rw [h1, List.getElem?_append_right hi] at hc
    exact h2 c (List.mem_of_getElem? hc)

/-- Non-vacuity: GracefulStop is called, `Serve` returns, Stop is called. -/
example : ∃ s, (starting [true]).run (orderly ++ [.main, .main, .main, .call false]) = some s ∧ s.main = .done ∧
    s.result = some (some (.http Status.ErrGracefulShutdown)) ∧ s.calls.map Call.returned = [true, false] :=
  ⟨_, rfl, by decide, by decide, by decide⟩

/-- **C47** is false of a restarted application: the goroutine of a server, left behind by the first `Serve`, which was stopped
gracefully, sends its result (nil) to the second one, which returns it at once, without a cause. -/
theorem C47_restart_violation :
    ∃ s, (starting [true]).run (orderly ++ [.main, .main, .main, .loop 0 .conn]) = some s ∧ s.main = .done ∧
      s.servers.map Srv.pc = [.send none] ∧
    ∃ s', (starting [true] [⟨none, false⟩]).run [.main, .main, .main, .recvCall 0, .main, .main, .main, .main, .main] = some s' ∧
      s'.main = .done ∧ s'.result = some none :=
  ⟨_, rfl, by decide, by decide, _, rfl, by decide, by decide⟩

/-- **C47**, partial: when a graceful stop has reached all listeners, each of them gets at most one more connection, and none if
it has deadlines and no connection is held by its accept loop then. -/
theorem C47_graceful_partial (deadliners : List Bool) (s s' : State) (ls : List Label) (h : Reachable deadliners s)
    (paused : s.main = .pauseWait 0) (run : s.run ls = some s') (i : Nat)
    (srv srv' : Srv) (hi : s.servers[i]? = some srv) (hi' : s'.servers[i]? = some srv') :
    srv.conns.length ≤ srv'.conns.length ∧ srv'.conns.length ≤ srv.conns.length + 1 ∧
    (srv.deadliner = true → srv.holds = false → srv'.conns.length = srv.conns.length) := by
  obtain ⟨ls0, h⟩ := h
  have hp : ∀ srv ∈ s.servers, srv.shutdown = true ∧ srv.expired = srv.deadliner := by
    intro srv hm
    obtain ⟨i, hi⟩ := List.getElem?_of_mem hm
    exact (pausing_run h i srv hi).paused (by rw [paused]; trivial)
  obtain ⟨b, hb, h1, h2⟩ := potential_run run (by rw [paused]; trivial) (fun srv hm => (hp srv hm).1) i srv' hi'
  rw [hi] at hb; cases hb
  have h3 : srv'.conns.length ≤ srv'.potential := by unfold Srv.potential; omega
  refine ⟨h2, ?_, ?_⟩
  · have : srv.potential ≤ srv.conns.length + 1 := by unfold Srv.potential; split <;> omega
    omega
  · intro hd hh
    have he := (hp srv (List.mem_of_getElem? hi)).2
    have : srv.potential = srv.conns.length := by
      unfold Srv.potential
      rw [if_neg]; · rfl
      rintro (hg | ⟨_, hg⟩)
      · simp [Srv.holds, hg] at hh
      · rw [he, hd] at hg; cases hg
    omega

/-- **C47** is false of listeners without deadlines (such as those made by `HTTPS`, crypto/tls): after a graceful stop has reached
them, they accept another connection. -/
theorem C47_accepts_after_graceful_violation :
    ∃ s s', Reachable [false] s ∧ s.main = .pauseWait 0 ∧ s.servers.map Srv.conns = [[]] ∧ s.servers.map Srv.holds = [false] ∧
      s.run [.loop 0 .conn, .loop 0 .conn] = some s' ∧ s'.servers.map Srv.conns = [[.serving]] :=
  ⟨_, _, ⟨[.main, .main, .main, .loop 0 .conn, .call true, .recvCall 0, .main, .main], rfl⟩, by decide, by decide, by decide, rfl,
    by decide⟩

/-! ### C48: handlers of listeners -/

/-- What binding does, from some state of the loop on. -/
theorem bindLoop_ok (fail : Nat → Source → Option GoErr) (b' : Binding) : ∀ (ss : List Source) (i : Nat) (b : Binding),
    bindLoop fail i ss b = (.ok b', b') → 0 < b.vars.length →
    b'.servers = b.servers ++ (List.range' i ss.length).map (fun j => ⟨j, 0⟩) ∧
    b'.onBind = b.onBind ++ ss.map Source.Addr ∧
    b'.sockets = b.sockets ++ List.range' i ss.length ∧
    (b'.vars[0]?).bind Source.Handler = (match ss.getLast? with
      | some s => some s.configured
      | none => (b.vars[0]?).bind Source.Handler) := by
  intro ss
  induction ss with
  | nil => intro i b h _; simp [bindLoop] at h; subst h; simp
  | cons s ss ih =>
    intro i b h hv
    simp only [bindLoop, bindOne] at h
    cases hf : fail i s with
    | some e => rw [hf] at h; simp at h
    | none =>
      rw [hf] at h
      dsimp only at h
      obtain ⟨h1, h2, h3, h4⟩ := ih _ _ h (by split <;> simpa using hv)
      refine ⟨?_, ?_, ?_, ?_⟩
      · rw [h1]; split <;> simp [List.range'_succ]
      · rw [h2]; split <;> simp
      · rw [h3]; split <;> simp [List.range'_succ]
      · rw [h4]
        cases hl : ss.getLast? with
        | some s' => rw [List.getLast?_cons, hl]; rfl
        | none =>
          rw [List.getLast?_cons, hl]
          have : ∃ v vs, b.vars = v :: vs := by
            cases hb : b.vars with
            | nil => simp [hb] at hv
            | cons v vs => exact ⟨v, vs, rfl⟩
          obtain ⟨v, vs, hb⟩ := this
          dsimp only [Option.getD]
          split
          · rename_i hn; simp [hb, Source.configured, hn]
          · rename_i hn
            cases hh : s.Handler with
            | none => exact absurd hh hn
            | some x => simp [hb, Source.configured, hh]

/-- **C48**, what holds: connections of all listeners are handled by the handler configured for the last listener. -/
theorem C48_last_handler_wins (a : App) (fail : Nat → Source → Option GoErr) (b : Binding) (h : a.bind fail = (.ok b, b)) :
    b.servers.length = a.sources.length ∧
    ∀ srv ∈ b.servers, b.handlerFor srv = a.sources.getLast?.map Source.configured := by
  obtain ⟨h1, _, _, h4⟩ := bindLoop_ok fail b a.sources 0 _ h (by simp)
  refine ⟨by rw [h1]; simp, ?_⟩
  intro srv hs
  rw [h1] at hs
  simp only [List.nil_append, List.mem_map] at hs
  obtain ⟨j, _, rfl⟩ := hs
  unfold Binding.handlerFor
  rw [h4]
  cases a.sources.getLast? <;> rfl

/-- **C48**, partial: if all listeners have the same handler (for instance, if there is only one), each listener's connections
are handled by its own. -/
theorem C48_one_handler_partial (a : App) (fail : Nat → Source → Option GoErr) (b : Binding) (h : a.bind fail = (.ok b, b))
    (same : ∀ s ∈ a.sources, ∀ s' ∈ a.sources, s.configured = s'.configured) (i : Nat) (src : Source) (srv : Bound)
    (hi : a.sources[i]? = some src) (hs : b.servers[i]? = some srv) :
    srv.sock = i ∧ b.handlerFor srv = some src.configured := by
  obtain ⟨h1, _, _, _⟩ := bindLoop_ok fail b a.sources 0 _ h (by simp)
  constructor
  · rw [h1] at hs
    simp only [List.nil_append, List.getElem?_map] at hs
    rw [List.getElem?_range' (get_lt hi)] at hs
    cases hs; simp
  · rw [(C48_last_handler_wins a fail b h).2 srv (List.mem_of_getElem? hs)]
    cases hl : a.sources.getLast? with
    | none =>
      have := get_lt hi
      simp at hl; simp [hl] at this
    | some s' => rw [Option.map_some, same src (List.mem_of_getElem? hi) s' (List.mem_of_getLast? hl)]

/-- **C48** is false whenever a listener's handler differs from the last one's. -/
theorem C48_wrong_handler_violation (a : App) (fail : Nat → Source → Option GoErr) (b : Binding) (h : a.bind fail = (.ok b, b))
    (i : Nat) (src last : Source) (srv : Bound) (_ : a.sources[i]? = some src) (hl : a.sources.getLast? = some last)
    (differs : src.configured ≠ last.configured) (hs : b.servers[i]? = some srv) :
    b.handlerFor srv ≠ some src.configured := by
  rw [(C48_last_handler_wins a fail b h).2 srv (List.mem_of_getElem? hs), hl]
  intro he
  simp at he
  exact differs he.symm

/-- An application with a listener for HTTP and one for HTTPS. -/
def both : App := (new b!":80").https b!":443" b!"cert" b!"key"

/-- Connections to port 80 are taken for encrypted ones. -/
theorem C48_plain_taken_for_TLS_violation :
    let b := (both.bind (fun _ _ => none)).2
    both.sources.map Source.Addr = [b!"0.0.0.0:80", b!"0.0.0.0:443"] ∧
    both.sources.map Source.configured = [.http Middleware.Plain, .http TLS] ∧
    b.servers.map b.handlerFor = [some (.http TLS), some (.http TLS)] := by decide


/-! ### C72: starting -/

/-- **C72**: if all listeners can be bound, there is one server for each, in order, and OnBind is called for each address,
in order. -/
theorem C72_all_bound (a : App) (fail : Nat → Source → Option GoErr) (ok : ∀ i src, a.sources[i]? = some src → fail i src = none) :
    ∃ b, a.bind fail = (.ok b, b) ∧ b.onBind = a.sources.map Source.Addr ∧ b.sockets = List.range a.sources.length ∧
      b.servers.map Bound.sock = List.range a.sources.length := by
  have loop : ∀ (ss : List Source) (i : Nat) (b : Binding), (∀ j src, ss[j]? = some src → fail (i + j) src = none) →
      ∃ b', bindLoop fail i ss b = (.ok b', b') := by
    intro ss
    induction ss with
    | nil => intro i b _; exact ⟨b, rfl⟩
    | cons s ss ih =>
      intro i b h
      have h0 : fail i s = none := h 0 s rfl
      simp only [bindLoop, bindOne, h0]
      exact ih (i + 1) _ (fun j src hj => by rw [Nat.add_right_comm]; exact h (j + 1) src (by simpa using hj))
  obtain ⟨b, hb⟩ := loop a.sources 0 { vars := [⟨[], .net, none⟩] } (by simpa using ok)
  obtain ⟨h1, h2, h3, _⟩ := bindLoop_ok fail b a.sources 0 _ hb (by simp)
  refine ⟨b, hb, by simpa using h2, by simpa [List.range_eq_range'] using h3, ?_⟩
  rw [h1]
  simp [List.range_eq_range', Function.comp_def]

/-- **C72**, **C48**: every call adds one listener, after those there are; it listens in the way asked for, on the address in the call,
with the wildcard host if it names none, and the handler configured is the one asked for. -/
theorem C72_listeners (a : App) (calls : List Setting) :
    ∃ added, (called a calls).sources = a.sources ++ added ∧ added.length = calls.length ∧
      ∀ (i : Nat) (c : Setting) (s : Source), calls[i]? = some c → added[i]? = some s →
        (Props.HasHost c.asks.1 → s.Addr = c.asks.1) ∧ (¬ Props.HasHost c.asks.1 → s.Addr = b!"0.0.0.0" ++ c.asks.1) ∧
        s.Listen = c.asks.2.1 ∧ s.configured = c.asks.2.2 := by
  have one : ∀ (addr : Bytes) (ls : List Listener), ∃ s, (a.listen addr ls).sources = a.sources ++ [s] ∧
      (Props.HasHost addr → s.Addr = addr) ∧ (¬ Props.HasHost addr → s.Addr = b!"0.0.0.0" ++ addr) ∧
      s.Listen = (Setting.listen addr ls).asks.2.1 ∧ s.configured = (Setting.listen addr ls).asks.2.2 := by
    intro addr ls
    refine ⟨_, rfl, (Props.C58_normalize addr).1, (Props.C58_normalize addr).2, ?_⟩
    cases ls with
    | nil => exact ⟨rfl, rfl⟩
    | cons l ls => obtain ⟨f, h⟩ := l; cases f <;> cases h <;> exact ⟨rfl, rfl⟩
  induction calls generalizing a with
  | nil => exact ⟨[], by simp [called], rfl, by simp⟩
  | cons c calls ih =>
    obtain ⟨a', s, e, hs, h2, h3, h4, h5⟩ : ∃ a' s, called a (c :: calls) = called a' calls ∧ a'.sources = a.sources ++ [s] ∧
        (Props.HasHost c.asks.1 → s.Addr = c.asks.1) ∧ (¬ Props.HasHost c.asks.1 → s.Addr = b!"0.0.0.0" ++ c.asks.1) ∧
        s.Listen = c.asks.2.1 ∧ s.configured = c.asks.2.2 := by
      cases c with
      | listen addr ls =>
        obtain ⟨s, h1, h2, h3, h4, h5⟩ := one addr ls
        refine ⟨_, s, rfl, h1, ?_, ?_, h4, h5⟩ <;> cases ls <;> assumption
      | https addr cert key =>
        obtain ⟨s, h1, h2⟩ := one addr [{ Listen := some (.tls cert key), Handler := some (.http TLS) }]
        exact ⟨_, s, rfl, h1, h2⟩
    obtain ⟨added, h6, h7, h8⟩ := ih a' (fun addr ls => by
      refine ⟨_, rfl, (Props.C58_normalize addr).1, (Props.C58_normalize addr).2, ?_⟩
      cases ls with
      | nil => exact ⟨rfl, rfl⟩
      | cons l ls => obtain ⟨f, h⟩ := l; cases f <;> cases h <;> exact ⟨rfl, rfl⟩)
    refine ⟨s :: added, by rw [e, h6, hs]; simp, by simp [h7], ?_⟩
    intro i c' s' hc hs'
    cases i with
    | zero => simp at hc hs'; subst hc hs'; exact ⟨h2, h3, h4, h5⟩
    | succ i => exact h8 i c' s' (by simpa using hc) (by simpa using hs')

/-- Non-vacuity: an HTTP listener, a custom one with the handler left out, and an HTTPS one. -/
example : ((called (new b!":80") [.listen b!"localhost:81" [{ Listen := some (.custom 7) }], .https b!":443" b!"c" b!"k"]).sources.map
    fun s => (s.Addr, s.Listen, s.configured)) = [(b!"0.0.0.0:80", .net, .http Middleware.Plain),
      (b!"localhost:81", .custom 7, .http Middleware.Plain), (b!"0.0.0.0:443", .tls b!"c" b!"k", .http TLS)] := by decide

theorem bindLoop_error (fail : Nat → Source → Option GoErr) (e : GoErr) (b' : Binding) : ∀ (ss : List Source) (i : Nat) (b : Binding),
    bindLoop fail i ss b = (.error e, b') →
    ∃ (j : Nat) (src : Source), ss[j]? = some src ∧ fail (i + j) src = some e ∧
      (∀ (k : Nat) (src : Source), k < j → ss[k]? = some src → fail (i + k) src = none) ∧
      b'.onBind = b.onBind ++ (ss.take j).map Source.Addr ∧ b'.sockets = b.sockets ++ List.range' i j := by
  intro ss
  induction ss with
  | nil => intro i b h; simp [bindLoop] at h
  | cons s ss ih =>
    intro i b h
    simp only [bindLoop, bindOne] at h
    cases hf : fail i s with
    | some e' =>
      rw [hf] at h
      simp at h
      obtain ⟨rfl, rfl⟩ := h
      exact ⟨0, s, rfl, hf, by intro k _ hk; omega, by simp, by simp⟩
    | none =>
      rw [hf] at h
      dsimp only at h
      obtain ⟨j, src, h1, h2, h3, h4, h5⟩ := ih _ _ h
      refine ⟨j + 1, src, by simpa using h1, by rw [← h2]; congr 1; omega, ?_, ?_, ?_⟩
      · intro k src' hk hs
        cases k with
        | zero => simp at hs; subst hs; exact hf
        | succ k => rw [show i + (k + 1) = i + 1 + k by omega]; exact h3 k src' (by omega) (by simpa using hs)
      · rw [h4]; split <;> simp
      · rw [h5]; split <;> simp [List.range'_succ]

/-- **C72**: binding fails only with the error of the first listener which cannot be bound, and OnBind has been called
for exactly the listeners before it. But these stay open. -/
theorem C72_first_failure (a : App) (fail : Nat → Source → Option GoErr) (e : GoErr) (b : Binding)
    (h : a.bind fail = (.error e, b)) :
    ∃ (i : Nat) (src : Source), a.sources[i]? = some src ∧ fail i src = some e ∧
      (∀ (k : Nat) (src : Source), k < i → a.sources[k]? = some src → fail k src = none) ∧
      b.onBind = (a.sources.take i).map Source.Addr ∧ b.sockets = List.range i := by
  obtain ⟨i, src, h1, h2, h3, h4, h5⟩ := bindLoop_error fail e b a.sources 0 _ h
  exact ⟨i, src, h1, by simpa using h2, by simpa using h3, by simpa using h4, by simpa [List.range_eq_range'] using h5⟩

/-- **C72** is false: if a listener which is not the first one cannot be bound, the others stay open although `Serve`
has failed. -/
theorem C72_left_open_violation (a : App) (fail : Nat → Source → Option GoErr) (e : GoErr) (b : Binding)
    (h : a.bind fail = (.error e, b)) (first : ∀ src, a.sources[0]? = some src → fail 0 src = none) : b.sockets ≠ [] := by
  obtain ⟨i, src, h1, h2, _, _, h5⟩ := C72_first_failure a fail e b h
  cases i with
  | zero => rw [first src h1] at h2; cases h2
  | succ i => rw [h5]; simp

/-- Non-vacuity: the port for HTTPS is taken. -/
example : (both.bind (fun i _ => if i = 1 then some (.other 7) else none)).1.toOption = none ∧
    (both.bind (fun i _ => if i = 1 then some (.other 7) else none)).2.sockets = [0] := by decide

/-! ### C73: AutoHTTPS -/

/-- **C73**, partial: for an address whose host is a name other than that of the local host, certificates are requested for the given
domains. -/
theorem C73_autocert_partial (selfSigned : Except GoErr (Bytes × Bytes)) (a : App) (host port : Bytes) (at_ : HostPort host port)
    (name : IsDomain host) (domains : List Bytes) :
    (a.autoHTTPS selfSigned (host ++ port) domains).sources =
      a.sources ++ [⟨host ++ port, .autoTLS domains, some (.http TLS)⟩] := by
  have hn := Address.normalize_host at_ name.nonempty
  unfold App.autoHTTPS
  rw [hn]
  dsimp only
  have h1 : Address.isLocalhost (host ++ port) = false := by
    rw [Address.isLocalhost_ascii at_ name.ascii]; simp [name.notLocal]
  have h2 : Address.isIP (host ++ port) = false := by
    rw [← Bool.not_eq_true, Address.isIP_iff at_]; exact name.notIP
  rw [h1, h2]
  simp [App.listen, hn]

private theorem here_local {host port : Bytes} (at_ : HostPort host port) (here : lower host = b!"localhost" ∨ IsIPv4 host) :
    Address.normalize (host ++ port) = host ++ port ∧ (Address.isLocalhost (host ++ port) || Address.isIP (host ++ port)) = true := by
  have ne : host ≠ [] := by
    rintro rfl
    rcases here with h | ⟨a, b, c, d, ha, _, _, _, h⟩
    · cases h
    · simp at h
  refine ⟨Address.normalize_host at_ ne, ?_⟩
  rcases here with h | h
  · rw [Address.isLocalhost_ascii at_ ?_]
    · simp [h]
    · intro c hc
      have h1 : lowerByte c ∈ lower host := List.mem_map_of_mem hc
      rw [h] at h1
      revert h1
      revert c
      exact fun c _ => byte_forall (P := fun c => lowerByte c ∈ b!"localhost" → c.toNat < 128) (by decide +kernel) c
  · rw [(Address.isIP_iff at_).2 h]; simp

/-- for localhost and IP addresses of version 4, a certificate made on the spot is used, if one can be made. -/
theorem C73_selfSigned_partial (cert key : Bytes) (a : App) (host port : Bytes) (at_ : HostPort host port)
    (here : lower host = b!"localhost" ∨ IsIPv4 host) (domains : List Bytes) :
    (a.autoHTTPS (.ok (cert, key)) (host ++ port) domains).sources =
      a.sources ++ [⟨host ++ port, .tls cert key, some (.http TLS)⟩] := by
  obtain ⟨hn, h⟩ := here_local at_ here
  unfold App.autoHTTPS
  rw [hn]
  dsimp only
  rw [h]
  simp [App.https, App.listen, hn]

/-- Non-vacuity: a name, two ways to write the local host, and an address of version 4. -/
example : HostPort b!"example.com" b!":443" ∧ IsDomain b!"example.com" := by
  refine ⟨⟨by decide, .inr ⟨_, rfl⟩⟩, by decide, by decide, by decide, ?_⟩
  rintro ⟨a, b, c, d, ha, _, _, _, h⟩
  have : Spec.isDigit 101 = true := by
    cases a with
    | nil => exact absurd rfl ha.1
    | cons x xs =>
      simp only [List.cons_append, List.cons.injEq] at h
      exact h.1 ▸ List.all_eq_true.1 ha.2.1 x (by simp)
  exact absurd this (by decide)
example : HostPort b!"LocalHost" b!":8443" ∧ lower b!"LocalHost" = b!"localhost" := ⟨⟨by decide, .inr ⟨_, rfl⟩⟩, by decide⟩
example : HostPort b!"127.0.0.1" [] ∧ IsIPv4 b!"127.0.0.1" :=
  ⟨⟨by decide, .inl rfl⟩, b!"127", b!"0", b!"0", b!"1", ⟨by decide, by decide, by decide, by decide⟩, ⟨by decide, by decide, by decide, by decide⟩,
    ⟨by decide, by decide, by decide, by decide⟩, ⟨by decide, by decide, by decide, by decide⟩, rfl⟩

/-- **C73** is false of addresses without a host: for `:443`, which is all addresses of the machine, the domains are ignored and a
self-signed certificate is used, as for the local host. -/
theorem C73_domains_ignored_violation (cert key : Bytes) (a : App) (port : Bytes) (domains : List Bytes) :
    (a.autoHTTPS (.ok (cert, key)) (COLON :: port) domains).sources =
      a.sources ++ [⟨b!"0.0.0.0" ++ COLON :: port, .tls cert key, some (.http TLS)⟩] := by
  have hn : Address.normalize (COLON :: port) = b!"0.0.0.0" ++ COLON :: port := rfl
  have := C73_selfSigned_partial cert key a b!"0.0.0.0" (COLON :: port) ⟨by decide, .inr ⟨_, rfl⟩⟩
    (.inr ⟨b!"0", b!"0", b!"0", b!"0", ⟨by decide, by decide, by decide, by decide⟩, ⟨by decide, by decide, by decide, by decide⟩,
      ⟨by decide, by decide, by decide, by decide⟩, ⟨by decide, by decide, by decide, by decide⟩, rfl⟩) domains
  rw [← this]
  unfold App.autoHTTPS
  rw [hn]
  rfl

/-- **C73** is false of addresses of version 6, which are written in brackets (RFC 3986, 3.2.2): they are not taken for addresses, not even that of the local host. No
certificate is made, and certificates are requested from the authority. -/
theorem C73_version_6_violation (selfSigned : Except GoErr (Bytes × Bytes)) (a : App) (rest : Bytes) (domains : List Bytes) :
    (a.autoHTTPS selfSigned (b!"[:" ++ rest) domains).sources = a.sources ++ [⟨b!"[:" ++ rest, .autoTLS domains, some (.http TLS)⟩] := by
  have := C73_autocert_partial selfSigned a b!"[" (COLON :: rest) ⟨by decide, .inr ⟨_, rfl⟩⟩
    ⟨by decide, by decide, by decide, by
      rintro ⟨a, b, c, d, ha, _, _, _, h⟩
      have : (a ++ DOT :: (b ++ DOT :: (c ++ DOT :: d))).length = 1 := by rw [← h]; rfl
      simp at this
      omega⟩ domains
  exact this

/-- **C73** is false if no certificate can be made: there is no listener for the address at all, with or without encryption. -/
theorem C73_not_listening_violation (e : GoErr) (a : App) (host port : Bytes) (at_ : HostPort host port)
    (here : lower host = b!"localhost" ∨ IsIPv4 host) (domains : List Bytes) :
    a.autoHTTPS (.error e) (host ++ port) domains = a := by
  obtain ⟨hn, h⟩ := here_local at_ here
  unfold App.autoHTTPS
  rw [hn]
  dsimp only
  rw [h]
  rfl

end Indigo.App
