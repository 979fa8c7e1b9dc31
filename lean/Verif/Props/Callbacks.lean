/-
C108: stopping the application from its own callbacks.
-/
import Verif.Model.Callbacks
import Verif.Props.App

namespace Indigo.Props
open Indigo.App

/-- What happens without regard to who calls. -/
def below : Doing → Label
  | .step l => l
  | .hook g => .call g
  | .handler _ _ g => .call g

theorem busy_below {b b' : Busy} {d : Doing} (h : b.step d = some b') : b.s.step (below d) = some b'.s := by
  cases d with
  | step l =>
    cases l <;> simp only [Busy.step] at h
    case main => split at h <;> first | (cases h; done) | skip
                 obtain ⟨s, hs, rfl⟩ := Option.map_eq_some_iff.1 h; exact hs
    case conn => split at h <;> first | (cases h; done) | skip
                 obtain ⟨s, hs, rfl⟩ := Option.map_eq_some_iff.1 h; exact hs
    all_goals (obtain ⟨s, hs, rfl⟩ := Option.map_eq_some_iff.1 h; exact hs)
  | hook g =>
    simp only [Busy.step] at h
    split at h
    · obtain ⟨s, hs, rfl⟩ := Option.map_eq_some_iff.1 h; exact hs
    · cases h
  | handler i j g =>
    simp only [Busy.step] at h
    split at h
    · obtain ⟨s, hs, rfl⟩ := Option.map_eq_some_iff.1 h; exact hs
    · cases h

theorem busy_run_below : ∀ {ds : List Doing} {b b' : Busy}, b.run ds = some b' → b.s.run (ds.map below) = some b'.s := by
  intro ds
  induction ds with
  | nil => intro b b' h; cases h; rfl
  | cons d ds ih =>
    intro b b' h
    simp only [Busy.run] at h
    split at h
    · rename_i b1 h1
      simp only [List.map_cons, State.run, busy_below h1]
      exact ih h
    · cases h

theorem busy_induct {Inv : Busy → Prop} (hstep : ∀ b d b', Inv b → b.step d = some b' → Inv b') :
    ∀ {ds b b'}, Inv b → b.run ds = some b' → Inv b' := by
  intro ds
  induction ds with
  | nil => intro b b' h hr; cases hr; exact h
  | cons d ds ih =>
    intro b b' h hr
    simp only [Busy.run] at hr
    split at hr
    · rename_i b1 h1; exact ih (hstep _ _ _ h h1) hr
    · cases hr

theorem waiting_append {s s' : State} {k : Nat} {more} (h : s'.calls = s.calls ++ more) (hw : s.waiting k = true) : s'.waiting k = true := by
  unfold State.waiting at hw ⊢
  split at hw
  · rename_i c hc
    rw [h, List.getElem?_append_left (get_lt hc), hc]; exact hw
  · cases hw

/-- All states an application with the given listeners can get into, if its callbacks may call `Stop` and `GracefulStop`. -/
def Gets (deadliners : List Bool) (b : Busy) : Prop := ∃ ds, ({ s := starting deadliners } : Busy).run ds = some b

theorem called_waits {s s' : State} {g : Bool} (h : s.step (.call g) = some s') :
    s'.calls = s.calls ++ [⟨some (.http (if g then Status.ErrGracefulShutdown else Status.ErrShutdown)), false⟩] ∧ s'.main = s.main ∧ s'.servers = s.servers ∧
      s'.waiting s.calls.length = true := by
  simp only [State.step, Option.some.injEq] at h
  subst h
  refine ⟨rfl, rfl, rfl, ?_⟩
  simp [State.waiting]

/-- A hook which waits for its call while `run` cannot receive. -/
theorem hook_stuck {b : Busy} {k : Nat} (hm : b.s.main.inHook = true) (hk : b.hook = some k) (hw : b.s.waiting k = true) {ds : List Doing} {b' : Busy}
    (h : b.run ds = some b') : b'.s.main = b.s.main ∧ b'.hook = some k ∧ b'.s.waiting k = true ∧ b'.s.onStarts = b.s.onStarts ∧ b'.s.onStops = b.s.onStops := by
  refine busy_induct (Inv := fun b' => b'.s.main = b.s.main ∧ b'.hook = some k ∧ b'.s.waiting k = true ∧ b'.s.onStarts = b.s.onStarts ∧ b'.s.onStops = b.s.onStops) ?_
    ⟨rfl, hk, hw, rfl, rfl⟩ h
  rintro t d t' ⟨h1, h2, h3, h4, h5⟩ hs
  have hne : t.s.main ≠ .recv := by rw [h1]; intro e; rw [e] at hm; cases hm
  obtain ⟨-, more, hmore, -⟩ := late_step (busy_below hs) hne
  have hblock : t.hookWaits = true := by unfold Busy.hookWaits; rw [h1, hm, h2]; simpa using h3
  have hw' := waiting_append hmore h3
  cases d with
  | step l =>
    have hb := busy_below hs
    simp only [below] at hb
    have hmain := step_main hb
    cases l with
    | main => simp [Busy.step, hblock] at hs
    | recvCall i => simp [State.step, hne] at hb
    | recvLoop i => simp [State.step, hne] at hb
    | loop i a =>
      simp only [Busy.step] at hs
      obtain ⟨s, hs', rfl⟩ := Option.map_eq_some_iff.1 hs
      refine ⟨Eq.trans (by simpa [Label.isMain] using hmain) h1, h2, hw', ?_, ?_⟩
      all_goals
        simp only [State.step] at hs'
        split at hs' <;> (try split at hs') <;> cases hs' <;> assumption
    | conn i j =>
      simp only [Busy.step] at hs
      split at hs
      · cases hs
      · obtain ⟨s, hs', rfl⟩ := Option.map_eq_some_iff.1 hs
        refine ⟨Eq.trans (by simpa [Label.isMain] using hmain) h1, h2, hw', ?_, ?_⟩
        all_goals
          simp only [State.step] at hs'
          split at hs' <;> (try split at hs') <;> cases hs' <;> assumption
    | call g =>
      simp only [Busy.step] at hs
      obtain ⟨s, hs', rfl⟩ := Option.map_eq_some_iff.1 hs
      simp only [State.step, Option.some.injEq] at hs'
      subst hs'
      exact ⟨h1, h2, hw', h4, h5⟩
  | hook g => simp [Busy.step, hblock] at hs
  | handler i j g =>
    simp only [Busy.step] at hs
    split at hs
    · obtain ⟨s, hs', rfl⟩ := Option.map_eq_some_iff.1 hs
      simp only [State.step, Option.some.injEq] at hs'
      subst hs'
      exact ⟨h1, h2, hw', h4, h5⟩
    · cases hs

/-- **C108** is false of hooks: if OnStart calls `Stop` or `GracefulStop`, the call never returns, in no execution; and so the application is not stopped: OnStop is not called, and `Serve` does not return. -/
theorem C108_OnStart_violation (deadliners : List Bool) (b b' : Busy) (reached : Gets deadliners b) (starting : b.s.main = .onStart) (g : Bool) (ds : List Doing)
    (h : b.run (.hook g :: ds) = some b') : b'.s.main = .onStart ∧ b'.s.waiting b.s.calls.length = true ∧ b'.s.onStops = 0 := by
  obtain ⟨ds0, hr⟩ := reached
  have hp := phase_run (busy_run_below hr)
  have h0 : b.s.onStops = 0 := by have := hp.stops; rw [starting] at this; exact this
  simp only [Busy.run] at h
  split at h
  · rename_i b1 h1
    simp only [Busy.step] at h1
    split at h1
    · obtain ⟨s, hs, rfl⟩ := Option.map_eq_some_iff.1 h1
      obtain ⟨-, c2, -, c4⟩ := called_waits hs
      have hst : s.onStops = b.s.onStops := by simp only [State.step, Option.some.injEq] at hs; subst hs; rfl
      obtain ⟨k1, -, k3, -, k5⟩ := hook_stuck (b := { b with s := s, hook := some b.s.calls.length }) (k := b.s.calls.length) (by show s.main.inHook = true; rw [c2, starting]; rfl) rfl c4 h
      exact ⟨by rw [k1]; show s.main = _; rw [c2, starting], k3, by rw [k5]; show s.onStops = 0; rw [hst, h0]⟩
    · cases h1
  · cases h

/-- **C108** is false of OnStop, too: if it calls one of them, it never returns, and so `Serve` never does. -/
theorem C108_OnStop_violation (b b' : Busy) (stopping : b.s.main = .onStop) (g : Bool) (ds : List Doing)
    (h : b.run (.hook g :: ds) = some b') : b'.s.main = .onStop ∧ b'.s.waiting b.s.calls.length = true := by
  simp only [Busy.run] at h
  split at h
  · rename_i b1 h1
    simp only [Busy.step] at h1
    split at h1
    · obtain ⟨s, hs, rfl⟩ := Option.map_eq_some_iff.1 h1
      obtain ⟨-, c2, -, c4⟩ := called_waits hs
      obtain ⟨k1, -, k3, -, -⟩ := hook_stuck (b := { b with s := s, hook := some b.s.calls.length }) (k := b.s.calls.length) (by show s.main.inHook = true; rw [c2, stopping]; rfl) rfl c4 h
      exact ⟨by rw [k1]; show s.main = _; rw [c2, stopping], k3⟩
    · cases h1
  · cases h

/-- A connection whose handler does not go on is being served. -/
theorem still_serving {s s' : State} {l : Label} (h : s.step l = some s') {i j : Nat} (hne : l ≠ .conn i j) {srv : Srv} (hi : s.servers[i]? = some srv)
    (hj : srv.conns[j]? = some .serving) : ∃ srv', s'.servers[i]? = some srv' ∧ srv'.conns[j]? = some .serving := by
  have hlen := step_length h
  have hlt : i < s'.servers.length := by rw [hlen]; exact get_lt hi
  refine ⟨s'.servers[i], by simp [hlt], ?_⟩
  obtain ⟨srv0, h0, hst⟩ := step_servers h i s'.servers[i] (by simp [hlt])
  rw [hi] at h0
  cases h0
  generalize s'.servers[i] = srv' at hst ⊢
  cases hst with
  | same => exact hj
  | start => exact hj
  | pause => exact hj
  | stop => exact hj
  | recv => exact hj
  | loop a _ silent' h1 h2 =>
    unfold Srv.loop at h1
    split at h1
    · cases h1
    · cases h1; split <;> exact hj
    · split at h1
      · split at h1 <;> cases h1; exact hj
      · cases h1; exact hj
    · cases h1
      dsimp only
      rw [List.getElem?_append_left (get_lt hj)]; exact hj
    · cases h1; exact hj
    · cases h1
    · cases h1
  | conn j' _ h1 h2 =>
    have hjj : j' ≠ j := by rintro rfl; exact hne h2
    unfold Srv.conn at h1
    split at h1 <;> first | (cases h1; done) | skip
    all_goals
      cases h1
      dsimp only
      rw [List.getElem?_set_ne hjj]; exact hj

theorem serving_present {srv : Srv} {j : Nat} (hj : srv.conns[j]? = some .serving) : 0 < srv.present := by
  rw [present_countP, List.countP_pos_iff]
  exact ⟨_, List.mem_of_getElem? hj, by simp⟩

/-- A handler which waits for a call nobody receives. -/
structure Stuck (i j k : Nat) (b : Busy) : Prop where
  handler : (i, j, k) ∈ b.handlers
  waits : b.s.waiting k = true
  late : b.s.main.late
  serving : ∃ srv, b.s.servers[i]? = some srv ∧ srv.conns[j]? = some .serving
  before : ¬ b.s.main.waited i
  orderly : ∀ i srv, b.s.servers[i]? = some srv → Orderly b.s.main i srv
  stops : b.s.onStops = 0

theorem handlers_kept {b b' : Busy} {d : Doing} (h : b.step d = some b') {x} (hx : x ∈ b.handlers) : x ∈ b'.handlers := by
  cases d with
  | step l =>
    cases l <;> simp only [Busy.step] at h
    case main => split at h <;> first | (cases h; done) | skip
                 obtain ⟨s, hs, rfl⟩ := Option.map_eq_some_iff.1 h; exact hx
    case conn => split at h <;> first | (cases h; done) | skip
                 obtain ⟨s, hs, rfl⟩ := Option.map_eq_some_iff.1 h; exact hx
    all_goals (obtain ⟨s, hs, rfl⟩ := Option.map_eq_some_iff.1 h; exact hx)
  | hook g =>
    simp only [Busy.step] at h
    split at h
    · obtain ⟨s, hs, rfl⟩ := Option.map_eq_some_iff.1 h; exact hx
    · cases h
  | handler i j g =>
    simp only [Busy.step] at h
    split at h
    · obtain ⟨s, hs, rfl⟩ := Option.map_eq_some_iff.1 h; exact List.mem_cons_of_mem _ hx
    · cases h

theorem stuck_step {i j k : Nat} {b b' : Busy} {d : Doing} (hs : Stuck i j k b) (h : b.step d = some b') : Stuck i j k b' := by
  have hb := busy_below h
  obtain ⟨srv, hi, hj⟩ := hs.serving
  have hne : b.s.main ≠ .recv := by intro e; have := hs.late; rw [e] at this; exact this
  obtain ⟨-, more, hmore, -⟩ := late_step hb hne
  have hwaits : b.handlerWaits i j = true := by
    unfold Busy.handlerWaits
    rw [List.any_eq_true]
    exact ⟨_, hs.handler, by simp [hs.waits]⟩
  have hlabel : below d ≠ .conn i j := by
    intro e
    cases d with
    | step l => simp only [below] at e; subst e; simp [Busy.step, hwaits] at h
    | hook g => cases e
    | handler _ _ g => cases e
  have hserv := still_serving hb hlabel hi hj
  have hlate := late_main hb hs.late
  have hwg : srv.wg ≠ 0 := by
    have := (hs.orderly i srv hi).counts
    have := serving_present hj
    omega
  have hbefore : ¬ b'.s.main.waited i := by
    have hm := step_main hb
    split at hm
    · have hbf := hs.before
      have hlt := get_lt hi
      generalize b'.s.main = m at hm ⊢
      intro hw
      cases hm with
      | stopWait k' srv' e1 e2 e3 =>
        rw [e1] at hbf
        simp only [MainPc.waited] at hbf hw
        have : k' = i := by omega
        subst this
        rw [hi] at e2
        cases e2
        exact hwg e3
      | stopWaited k' e1 e2 =>
        rw [e1] at hbf
        simp only [MainPc.waited] at hbf
        omega
      | onStop e => rw [e] at hbf; exact hbf trivial
      | stopped k' e1 e2 => simp [MainPc.waited] at hw
      | _ => exact hw.elim
    · rw [hm]; exact hs.before
  have hstops : b'.s.onStops = 0 := by
    have hnd : b'.s.main ≠ .done := by intro e; rw [e] at hbefore; exact hbefore trivial
    have hns : b.s.main ≠ .onStop := by intro e; have := hs.before; rw [e] at this; exact this trivial
    have hz := hs.stops
    clear hserv hlate hbefore hnd hmore h
    generalize below d = l at hb
    generalize b'.s = s' at hb ⊢
    cases l with
    | main =>
      simp only [State.step, State.mainStep] at hb
      split at hb <;> (try split at hb) <;> (try split at hb) <;> (try cases hb) <;> first | exact hz | (exact absurd (by assumption) hns)
    | recvCall _ => simp [State.step, hne] at hb
    | recvLoop _ => simp [State.step, hne] at hb
    | loop _ _ => simp only [State.step] at hb; split at hb <;> (try split at hb) <;> (try cases hb) <;> exact hz
    | conn _ _ => simp only [State.step] at hb; split at hb <;> (try split at hb) <;> (try cases hb) <;> exact hz
    | call g => simp only [State.step, Option.some.injEq] at hb; rw [← hb]; exact hz
  exact ⟨handlers_kept h hs.handler, waiting_append hmore hs.waits, hlate, hserv, hbefore, orderly_step hb hs.orderly, hstops⟩

/-- **C108** is false of handlers, if not only one of them is called: when the application is being stopped already (`result`), and does not wait for the connections of another listener after those of this one, and a handler calls `Stop` or `GracefulStop`, then in
no execution the handler returns; and so the application waits for ever: OnStop is never called, and `Serve` does not return. -/
theorem C108_second_handler_violation (deadliners : List Bool) (b b' : Busy) (reached : Gets deadliners b) (stopping : b.s.result.isSome) (i j : Nat)
    (before : (∀ k, b.s.main = .stopWait k → k ≤ i) ∧ b.s.main ≠ .onStop ∧ b.s.main ≠ .done) (g : Bool) (ds : List Doing)
    (h : b.run (.handler i j g :: ds) = some b') :
    (∃ srv, b'.s.servers[i]? = some srv ∧ srv.conns[j]? = some .serving) ∧ b'.s.waiting b.s.calls.length = true ∧ b'.s.onStops = 0 ∧ b'.s.main ≠ .done := by
  obtain ⟨ds0, hr⟩ := reached
  have hp := phase_run (busy_run_below hr)
  have ho := orderly_run (busy_run_below hr)
  have hl : b.s.main.late := by
    have := hp.result
    rw [stopping] at this
    cases hmm : b.s.main <;> rw [hmm] at this <;> first | trivial | (simp at this)
  have hb : ¬ b.s.main.waited i := by
    intro hw
    cases hmm : b.s.main <;> rw [hmm] at hw <;> first | (exact hw.elim) | skip
    · have := before.1 _ hmm
      simp only [MainPc.waited] at hw
      omega
    · exact before.2.1 hmm
    · exact before.2.2 hmm
  have hz : b.s.onStops = 0 := by
    have := hp.stops
    cases hmm : b.s.main <;> rw [hmm] at this <;> first | exact this | skip
    exact absurd hmm before.2.2
  simp only [Busy.run] at h
  split at h
  · rename_i b1 h1
    have hbl := busy_below h1
    simp only [Busy.step] at h1
    split at h1
    · rename_i hc
      obtain ⟨s, hs, rfl⟩ := Option.map_eq_some_iff.1 h1
      obtain ⟨-, c2, c3, c4⟩ := called_waits hs
      obtain ⟨srv, e1, e2⟩ := Option.bind_eq_some_iff.1 hc.1
      have hst : s.onStops = b.s.onStops := by simp only [State.step, Option.some.injEq] at hs; subst hs; rfl
      have start : Stuck i j b.s.calls.length { b with s := s, handlers := (i, j, b.s.calls.length) :: b.handlers } :=
        ⟨by simp, c4, by show s.main.late; rw [c2]; exact hl, ⟨srv, by show s.servers[i]? = _; rw [c3]; exact e1, e2⟩, by show ¬ s.main.waited i; rw [c2]; exact hb,
          orderly_step hbl ho, by show s.onStops = 0; rw [hst]; exact hz⟩
      have fin := busy_induct (Inv := Stuck i j b.s.calls.length) (fun _ _ _ h1 h2 => stuck_step h1 h2) start h
      refine ⟨fin.serving, fin.waits, fin.stops, fun e => ?_⟩
      have := fin.before
      rw [e] at this
      exact this trivial
    · cases h1
  · cases h

/-- **C108**, partial: a handler may stop the application if it is the first to do so. When `run` waits for a message, the call of a handler can be received; then the application is being stopped with this message, and the handler can go on. (Missing: other callers, see the
violations.) -/
theorem C108_first_handler_partial (b : Busy) (waiting : b.s.main = .recv) (i j k : Nat) (c : Call) (call : b.s.calls[k]? = some c) (pending : c.returned = false)
    (only : ∀ x ∈ b.handlers, x.1 = i → x.2.1 = j → x.2.2 ≠ k → b.s.waiting x.2.2 = false)
    (srv : Srv) (pc : ConnPc) (hs : b.s.servers[i]? = some srv) (hj : srv.conns[j]? = some pc) (hp : pc ≠ .gone) :
    ∃ b1 b2, b.step (.step (.recvCall k)) = some b1 ∧ b1.s.result = some c.msg ∧ b1.step (.step (.conn i j)) = some b2 := by
  obtain ⟨s', h1, h2, h3, h4⟩ := C47_call_returns_partial b.s k c waiting call pending
  have hcalls : s'.calls = b.s.calls.set k { c with returned := true } ∧ s'.servers = b.s.servers := by
    simp only [State.step, waiting, call, pending] at h1
    cases h1
    exact ⟨rfl, rfl⟩
  obtain ⟨s2, h5⟩ := C47_connections_end s' i j srv pc (by rw [hcalls.2]; exact hs) hj hp
  refine ⟨{ b with s := s' }, { b with s := s2 }, by simp only [Busy.step, h1]; rfl, h3, ?_⟩
  have hnot : ({ b with s := s' } : Busy).handlerWaits i j = false := by
    unfold Busy.handlerWaits
    rw [List.any_eq_false]
    intro x hx
    simp only [Bool.and_eq_true, beq_iff_eq, not_and, Bool.not_eq_true, and_imp]
    intro e1 e2
    by_cases hk : x.2.2 = k
    · unfold State.waiting
      rw [hk, h2]; rfl
    · have := only x hx e1 e2 hk
      unfold State.waiting at this ⊢
      rw [show ({ b with s := s' } : Busy).s.calls = b.s.calls.set k { c with returned := true } from hcalls.1, List.getElem?_set_ne (Ne.symm hk)]
      exact this
  simp only [Busy.step, hnot, h5]
  rfl

/-- **C108**, partial: what keeps an application which is being stopped from going on are connections which are still there; and each of them can go on, unless its handler waits in a call of `Stop` or `GracefulStop` itself. (Missing: as before.) -/
theorem C108_goes_on_partial (deadliners : List Bool) (b : Busy) (reached : Gets deadliners b) (stopping : b.s.result.isSome) (nd : b.s.main ≠ .done) (hook : b.hookWaits = false)
    (handlers : ∀ i j, b.handlerWaits i j = false) :
    (∃ b', b.step (.step .main) = some b') ∨
    ∃ (i j : Nat) (srv : Srv) (pc : ConnPc), b.s.servers[i]? = some srv ∧ srv.conns[j]? = some pc ∧ pc ≠ .gone ∧ ∃ b', b.step (.step (.conn i j)) = some b' := by
  obtain ⟨ds, hr⟩ := reached
  rcases C47_progress deadliners b.s ⟨_, busy_run_below hr⟩ stopping nd with ⟨s', h⟩ | ⟨srv, hsrv, hpos⟩
  · exact .inl ⟨{ b with s := s', hook := none }, by simp only [Busy.step, hook, h]; rfl⟩
  · right
    obtain ⟨i, hi⟩ := List.getElem?_of_mem hsrv
    rw [present_countP, List.countP_pos_iff] at hpos
    obtain ⟨pc, hpc, hne⟩ := hpos
    obtain ⟨j, hj⟩ := List.getElem?_of_mem hpc
    have hne : pc ≠ .gone := by simpa using hne
    obtain ⟨s', h⟩ := C47_connections_end b.s i j srv pc hi hj hne
    exact ⟨i, j, srv, pc, hi, hj, hne, { b with s := s' }, by simp only [Busy.step, handlers i j, h]; rfl⟩

/-! ### The hypotheses are met -/

/-- One listener, two connections. -/
def twoClients : List Doing :=
  [.step .main, .step .main, .step .main, .step (.loop 0 .conn), .step (.loop 0 .conn), .step (.loop 0 .conn), .step (.loop 0 .conn), .step (.loop 0 .conn), .step (.loop 0 .conn)]

/-- C108: OnStart calls Stop. -/
example : ∃ b b', Gets [true] b ∧ b.s.main = .onStart ∧ b.run [.hook false, .step (.loop 0 .conn), .step (.call true)] = some b' :=
  ⟨_, _, ⟨[.step .main, .step .main], rfl⟩, by decide, rfl⟩

/-- C108: OnStop calls Stop. -/
example : ∃ b b', Gets [] b ∧ b.s.main = .onStop ∧ b.run [.hook false] = some b' :=
  ⟨_, _, ⟨[.step .main, .step .main, .step (.call false), .step (.recvCall 0), .step .main, .step .main], rfl⟩, by decide, rfl⟩

/-- C108: two handlers call Stop. The call of the first is received and it goes on; the second waits for ever. -/
example : ∃ b0 b b', Gets [true] b0 ∧ b0.s.main = .recv ∧ b0.handlers = [(0, 0, 0)] ∧ b0.s.waiting 0 = true ∧
    b0.run [.step (.recvCall 0), .step (.conn 0 0)] = some b ∧ b.s.result.isSome ∧ b.s.main = .stop 0 ∧
    b.run [.handler 0 1 false, .step (.conn 0 0), .step (.conn 0 0), .step .main, .step .main] = some b' ∧ b'.s.main = .stopWait 0 ∧
    b'.step (.step .main) = none ∧ b'.step (.step (.conn 0 1)) = none :=
  ⟨_, _, _, ⟨twoClients ++ [.handler 0 0 false], rfl⟩, by decide, by decide, by decide, rfl, by decide, by decide, rfl, by decide, by decide, by decide⟩

/-- C108: only one handler calls Stop: OnStop is called. -/
example : ∃ b, Gets [true] b ∧ b.s.main = .done ∧ b.s.onStops = 1 :=
  ⟨_, ⟨twoClients ++ [.handler 0 0 false, .step (.recvCall 0), .step (.conn 0 0), .step (.conn 0 0), .step (.conn 0 0), .step (.conn 0 1), .step (.conn 0 1), .step (.conn 0 1),
    .step .main, .step .main, .step .main, .step .main, .step .main], rfl⟩, by decide, by decide⟩

end Indigo.Props
