/-
Invariants of the running application.
-/
import Verif.Spec.App

namespace Indigo.App

theorem run_append (s : State) (l1 l2 : List Label) : s.run (l1 ++ l2) = (s.run l1).bind (fun s => s.run l2) := by
  induction l1 generalizing s with
  | nil => rfl
  | cons l ls ih =>
    simp only [List.cons_append, State.run]
    cases s.step l with
    | none => rfl
    | some s' => exact ih s'

/-- Invariants of steps are invariants of runs. -/
theorem run_induct {Inv : State → Prop} (hstep : ∀ s l s', Inv s → s.step l = some s' → Inv s') :
    ∀ {ls s s'}, Inv s → s.run ls = some s' → Inv s' := by
  intro ls
  induction ls with
  | nil => intro s s' h hr; cases hr; exact h
  | cons l ls ih =>
    intro s s' h hr
    simp only [State.run] at hr
    cases hs : s.step l with
    | none => rw [hs] at hr; cases hr
    | some s1 => rw [hs] at hr; exact ih (hstep _ _ _ h hs) hr

theorem set_all {α : Type} {l : List α} {Q Q' : Nat → α → Prop} (h : ∀ i a, l[i]? = some a → Q i a)
    (k : Nat) (b : α) (hb : k < l.length → Q' k b) (mono : ∀ i a, i ≠ k → Q i a → Q' i a) :
    ∀ i a, (l.set k b)[i]? = some a → Q' i a := by
  intro i a hi
  rw [List.getElem?_set] at hi
  split at hi
  · split at hi
    · subst_vars; cases hi; exact hb (by assumption)
    · cases hi
  · exact mono i a (by omega) (h i a hi)

theorem get_lt {α : Type} {l : List α} {i : Nat} {a : α} (h : l[i]? = some a) : i < l.length := by
  have := List.getElem?_eq_some_iff.1 h
  exact this.1

/-- What a step does to the servers: at most one of them does something. -/
inductive SrvStep (s : State) (l : Label) : Nat → Srv → Srv → Prop
  | same (i : Nat) (srv) : SrvStep s l i srv srv
  | start (i srv) : s.main = .start i → SrvStep s l i srv { srv with pc := .check }
  | pause (i srv) : s.main = .pause i → SrvStep s l i srv srv.pause
  | stop (i srv) : s.main = .stop i → SrvStep s l i srv srv.stop
  | recv (i srv e) : s.main = .recv → srv.pc = .send e → SrvStep s l i srv { srv with pc := .over }
  | loop (i srv a srv' silent') : srv.loop s.failSilently a = some (srv', silent') → l = .loop i a → SrvStep s l i srv srv'
  | conn (i srv j srv') : srv.conn j = some srv' → l = .conn i j → SrvStep s l i srv srv'

theorem set_steps {s : State} {l : Label} {k : Nat} {b b' : Srv} (hk : s.servers[k]? = some b) (hb : SrvStep s l k b b') :
    ∀ i srv', (s.servers.set k b')[i]? = some srv' → ∃ srv, s.servers[i]? = some srv ∧ SrvStep s l i srv srv' := by
  intro i srv' hi
  rw [List.getElem?_set] at hi
  split at hi
  · split at hi
    · subst_vars; cases hi; exact ⟨b, hk, hb⟩
    · cases hi
  · exact ⟨srv', hi, .same _ _⟩

theorem keep_steps {s : State} {l : Label} :
    ∀ i srv', s.servers[i]? = some srv' → ∃ srv, s.servers[i]? = some srv ∧ SrvStep s l i srv srv' :=
  fun _ srv' hi => ⟨srv', hi, .same _ _⟩

theorem received_servers (s : State) (m) : (s.received m).servers = s.servers := rfl

/-- Each server after a step comes from one before it. -/
theorem step_servers {s s' : State} {l : Label} (h : s.step l = some s') :
    ∀ i srv', s'.servers[i]? = some srv' → ∃ srv, s.servers[i]? = some srv ∧ SrvStep s l i srv srv' := by
  cases l with
  | main =>
    simp only [State.step, State.mainStep] at h
    split at h <;> (try split at h) <;> (try split at h) <;> (try cases h) <;>
      first
        | exact keep_steps (s := s)
        | exact set_steps (s := s) (by assumption) (.start _ _ (by assumption))
        | exact set_steps (s := s) (by assumption) (.pause _ _ (by assumption))
        | exact set_steps (s := s) (by assumption) (.stop _ _ (by assumption))
  | recvCall i =>
    simp only [State.step] at h
    split at h
    · split at h
      · split at h
        · cases h
        · cases h; exact keep_steps (s := s)
      · cases h
    · cases h
  | recvLoop i =>
    simp only [State.step] at h
    split at h
    · split at h
      · split at h
        · cases h
          exact set_steps (s := s) (by assumption) (.recv _ _ _ (by assumption) (by assumption))
        · cases h
      · cases h
    · cases h
  | loop i a =>
    simp only [State.step] at h
    split at h
    · split at h
      · cases h
        exact set_steps (s := s) (by assumption) (.loop _ _ _ _ _ (by assumption) rfl)
      · cases h
    · cases h
  | conn i j =>
    simp only [State.step] at h
    split at h
    · split at h
      · cases h
        exact set_steps (s := s) (by assumption) (.conn _ _ _ _ (by assumption) rfl)
      · cases h
    · cases h
  | call g =>
    simp only [State.step] at h
    cases h
    exact keep_steps (s := s)

/-- The number of servers does not change. -/
theorem step_length {s s' : State} {l : Label} (h : s.step l = some s') : s'.servers.length = s.servers.length := by
  cases l with
  | main =>
    simp only [State.step, State.mainStep] at h
    split at h <;> (try split at h) <;> (try split at h) <;> (try cases h) <;> simp
  | recvCall i =>
    simp only [State.step] at h
    split at h
    · split at h
      · split at h
        · cases h
        · cases h; rfl
      · cases h
    · cases h
  | recvLoop i =>
    simp only [State.step] at h
    split at h
    · split at h
      · split at h
        · cases h; simp [State.received]
        · cases h
      · cases h
    · cases h
  | loop i a =>
    simp only [State.step] at h
    split at h
    · split at h
      · cases h; simp
      · cases h
    · cases h
  | conn i j =>
    simp only [State.step] at h
    split at h
    · split at h
      · cases h; simp
      · cases h
    · cases h
  | call g =>
    simp only [State.step] at h
    cases h; rfl

/-- The steps of `run`, without what they do to servers. -/
inductive MainStep (s : State) : MainPc → Prop
  | start (k) : s.main = .start k → MainStep s (.start (k + 1))
  | started (k) : s.main = .start k → s.servers.length ≤ k → MainStep s .onStart
  | onStart : s.main = .onStart → MainStep s .recv
  | recvGraceful : s.main = .recv → MainStep s (.pause 0)
  | recv : s.main = .recv → MainStep s (.stop 0)
  | pause (k) : s.main = .pause k → MainStep s (.pause (k + 1))
  | paused (k) : s.main = .pause k → s.servers.length ≤ k → MainStep s (.pauseWait 0)
  | pauseWait (k srv) : s.main = .pauseWait k → s.servers[k]? = some srv → srv.wg = 0 → MainStep s (.pauseWait (k + 1))
  | pauseWaited (k) : s.main = .pauseWait k → s.servers.length ≤ k → MainStep s (.stop 0)
  | stop (k) : s.main = .stop k → MainStep s (.stop (k + 1))
  | stopped (k) : s.main = .stop k → s.servers.length ≤ k → MainStep s (.stopWait 0)
  | stopWait (k srv) : s.main = .stopWait k → s.servers[k]? = some srv → srv.wg = 0 → MainStep s (.stopWait (k + 1))
  | stopWaited (k) : s.main = .stopWait k → s.servers.length ≤ k → MainStep s .onStop
  | onStop : s.main = .onStop → MainStep s .done

theorem none_le {α : Type} {l : List α} {k : Nat} (h : l[k]? = none) : l.length ≤ k := List.getElem?_eq_none_iff.1 h

theorem received_main (s : State) (m) (h : s.main = .recv) : MainStep s (s.received m).main := by
  unfold State.received
  dsimp only
  split
  · exact .recvGraceful h
  · exact .recv h

/-- What a step does to `run`. -/
theorem step_main {s s' : State} {l : Label} (h : s.step l = some s') :
    if l.isMain then MainStep s s'.main else s'.main = s.main := by
  cases l with
  | main =>
    simp only [Label.isMain, if_true]
    simp only [State.step, State.mainStep] at h
    split at h
    · split at h <;> cases h
      · exact .start _ (by assumption)
      · exact .started _ (by assumption) (none_le (by assumption))
    · cases h; exact .onStart (by assumption)
    · cases h
    · split at h <;> cases h
      · exact .pause _ (by assumption)
      · exact .paused _ (by assumption) (none_le (by assumption))
    · split at h
      · split at h <;> cases h
        exact .pauseWait _ _ (by assumption) (by assumption) (by assumption)
      · cases h; exact .pauseWaited _ (by assumption) (none_le (by assumption))
    · split at h <;> cases h
      · exact .stop _ (by assumption)
      · exact .stopped _ (by assumption) (none_le (by assumption))
    · split at h
      · split at h <;> cases h
        exact .stopWait _ _ (by assumption) (by assumption) (by assumption)
      · cases h; exact .stopWaited _ (by assumption) (none_le (by assumption))
    · cases h; exact .onStop (by assumption)
    · cases h
  | recvCall i =>
    simp only [Label.isMain, if_true]
    simp only [State.step] at h
    split at h
    · split at h
      · split at h
        · cases h
        · cases h; exact received_main s _ (by assumption)
      · cases h
    · cases h
  | recvLoop i =>
    simp only [Label.isMain, if_true]
    simp only [State.step] at h
    split at h
    · split at h
      · split at h
        · cases h; exact received_main s _ (by assumption)
        · cases h
      · cases h
    · cases h
  | loop i a =>
    simp only [Label.isMain]
    simp only [State.step] at h
    split at h
    · split at h
      · cases h; rfl
      · cases h
    · cases h
  | conn i j =>
    simp only [Label.isMain]
    simp only [State.step] at h
    split at h
    · split at h
      · cases h; rfl
      · cases h
    · cases h
  | call g =>
    simp only [Label.isMain]
    simp only [State.step] at h
    cases h; rfl


/-! ### Servers -/

theorem present_countP (s : Srv) : s.present = s.conns.countP (· ≠ .gone) := by
  unfold Srv.present; rw [List.countP_eq_length_filter]

theorem present_set (l : List ConnPc) (j : Nat) (a b : ConnPc) (h : l[j]? = some a) :
    (l.set j b).countP (· ≠ .gone) + (if a = .gone then 0 else 1) =
      l.countP (· ≠ .gone) + (if b = .gone then 0 else 1) := by
  induction l generalizing j with
  | nil => simp at h
  | cons x xs ih =>
    cases j with
    | zero =>
      simp at h; subst h
      simp only [List.set_cons_zero, List.countP_cons]
      cases x <;> cases b <;> simp <;> omega
    | succ j =>
      have := ih j (by simpa using h)
      simp only [List.set_cons_succ, List.countP_cons]
      omega

/-- The counter of a server is the number of its connections. -/
theorem srv_counts {s : State} {l : Label} {i : Nat} {srv srv' : Srv} (h : SrvStep s l i srv srv')
    (hw : srv.wg = srv.present) : srv'.wg = srv'.present := by
  cases h with
  | same => exact hw
  | start => exact hw
  | pause => exact hw
  | stop => exact hw
  | recv => exact hw
  | loop a _ silent' h1 h2 =>
    rw [present_countP] at hw ⊢
    unfold Srv.loop at h1
    split at h1
    · cases h1
    · cases h1; split <;> exact hw
    · split at h1
      · split at h1 <;> cases h1; exact hw
      · cases h1; exact hw
    · cases h1
      simp only [List.countP_append, List.countP_cons, List.countP_nil]
      simp [hw]
    · cases h1; exact hw
    · cases h1
    · cases h1
  | conn j _ h1 h2 =>
    rw [present_countP] at hw ⊢
    unfold Srv.conn at h1
    split at h1
    · cases h1
      have := present_set srv.conns j _ .served (by assumption)
      simp at this; simp [hw, this]
    · cases h1
      have := present_set srv.conns j _ .closed (by assumption)
      simp at this; simp [hw, this]
    · cases h1
      have := present_set srv.conns j _ .gone (by assumption)
      simp at this ⊢
      simp at hw
      omega
    · cases h1

/-- Connections a server has, or is about to have. -/
def Srv.load (s : Srv) : Nat := s.present + (if s.pc = .got then 1 else 0)

/-- Once its listener is closed or its deadline has passed, a server gets no further connections. -/
theorem srv_load {s : State} {l : Label} {i : Nat} {srv srv' : Srv} (h : SrvStep s l i srv srv')
    (hc : (srv.closed || srv.expired) = true) : srv'.load ≤ srv.load := by
  cases h with
  | same => exact Nat.le_refl _
  | start => simp only [Srv.load, Srv.present]; simp
  | pause => exact Nat.le_refl _
  | stop => exact Nat.le_refl _
  | recv => simp only [Srv.load, Srv.present]; simp
  | loop a _ silent' h1 h2 =>
    unfold Srv.loop at h1
    split at h1
    · cases h1
    · cases h1; split <;> simp [Srv.load, Srv.present]
    · split at h1
      · rw [hc] at h1; cases h1
      · cases h1; simp [Srv.load, Srv.present]
    · rename_i hpc
      cases h1
      simp [Srv.load, Srv.present, hpc]
    · cases h1; simp only [Srv.load, Srv.present]; split <;> simp
    · cases h1
    · cases h1
  | conn j _ h1 h2 =>
    simp only [Srv.load, present_countP]
    unfold Srv.conn at h1
    split at h1
    · cases h1
      have := present_set srv.conns j _ .served (by assumption)
      simp at this; simp [this]
    · cases h1
      have := present_set srv.conns j _ .closed (by assumption)
      simp at this; simp [this]
    · cases h1
      have := present_set srv.conns j _ .gone (by assumption)
      simp at this ⊢
      omega
    · cases h1

theorem srv_closed {s : State} {l : Label} {i : Nat} {srv srv' : Srv} (h : SrvStep s l i srv srv')
    (hc : srv.closed = true) : srv'.closed = true := by
  cases h with
  | same => exact hc
  | start => exact hc
  | pause => exact hc
  | stop => rfl
  | recv => exact hc
  | loop a _ silent' h1 h2 =>
    unfold Srv.loop at h1
    repeat' split at h1
    all_goals first | (cases h1; done) | (cases h1; first | exact hc | (split <;> exact hc))
  | conn j _ h1 h2 =>
    unfold Srv.conn at h1
    repeat' split at h1
    all_goals first | (cases h1; done) | (cases h1; exact hc)

/-! ### Shutting down -/

/-- `run` has closed the listener of the i-th server. -/
def MainPc.closed (i : Nat) : MainPc → Prop
  | .stop k => i < k
  | .stopWait _ => True
  | .onStop => True
  | .done => True
  | _ => False

/-- `run` has closed the listener of the i-th server and has waited for its connections. -/
def MainPc.waited (i : Nat) : MainPc → Prop
  | .stopWait k => i < k
  | .onStop => True
  | .done => True
  | _ => False

/-- What holds of the i-th server. -/
structure Orderly (m : MainPc) (i : Nat) (srv : Srv) : Prop where
  counts : srv.wg = srv.present
  closed : m.closed i → srv.closed = true
  waited : m.waited i → srv.load ≤ 1

/-- A step of `run` which goes on to the next listener has closed the one before. -/
theorem stop_step {s s' : State} {l : Label} (h : s.step l = some s') {k : Nat} (hk : s.main = .stop k)
    (hk' : s'.main = .stop (k + 1)) : ∀ srv, s'.servers[k]? = some srv → srv.closed = true := by
  have hm := step_main h
  split at hm
  · rename_i hl
    have : l = .main := by
      cases l with
      | main => rfl
      | recvCall i => simp [State.step, hk] at h
      | recvLoop i => simp [State.step, hk] at h
      | _ => cases hl
    subst this
    simp only [State.step, State.mainStep, hk] at h
    split at h
    · cases h
      intro srv hs
      rw [List.getElem?_set] at hs
      simp at hs
      rw [← hs.2]; rfl
    · cases h; cases hk'
  · rw [hm, hk] at hk'; simp at hk'

theorem orderly_step {s s' : State} {l : Label} (h : s.step l = some s')
    (ho : ∀ i srv, s.servers[i]? = some srv → Orderly s.main i srv) :
    ∀ i srv, s'.servers[i]? = some srv → Orderly s'.main i srv := by
  intro i srv' hi
  obtain ⟨srv, hsrv, hst⟩ := step_servers h i srv' hi
  have hlen := step_length h
  have hi' : i < s.servers.length := get_lt hsrv
  obtain ⟨h1, h2, h3⟩ := ho i srv hsrv
  have hm := step_main h
  have hcl : s'.main.closed i → srv'.closed = true := by
    intro hc
    split at hm
    · cases hmm : s'.main <;> rw [hmm] at hm hc <;> simp only [MainPc.closed] at hc
      · cases hm with
        | recv => omega
        | pauseWaited => omega
        | stop k hk =>
          by_cases hik : i < k
          · exact srv_closed hst (h2 (by rw [hk]; exact hik))
          · have : i = k := by omega
            subst this
            exact stop_step h hk hmm srv' hi
      · cases hm with
        | stopped k hk hle => exact srv_closed hst (h2 (by rw [hk]; show i < k; omega))
        | stopWait k _ hk _ _ => exact srv_closed hst (h2 (by rw [hk]; trivial))
      · cases hm with
        | stopWaited k hk hle => exact srv_closed hst (h2 (by rw [hk]; trivial))
      · cases hm with
        | onStop hk => exact srv_closed hst (h2 (by rw [hk]; trivial))
    · rw [hm] at hc
      exact srv_closed hst (h2 hc)
  refine ⟨srv_counts hst h1, hcl, ?_⟩
  intro hc
  have old : s.main.waited i → srv'.load ≤ 1 := by
    intro hw
    have : srv.closed = true := h2 (by cases hmm : s.main <;> rw [hmm] at hw <;> first | trivial | exact hw.elim)
    exact Nat.le_trans (srv_load hst (by simp [this])) (h3 hw)
  split at hm
  · cases hmm : s'.main <;> rw [hmm] at hm hc <;> simp only [MainPc.waited] at hc
    · cases hm with
      | stopped => omega
      | stopWait k b hk hb hwg =>
        by_cases hik : i < k
        · exact old (by rw [hk]; exact hik)
        · have : i = k := by omega
          subst this
          rw [hsrv] at hb; cases hb
          have hsc : srv.closed = true := h2 (by rw [hk]; trivial)
          refine Nat.le_trans (srv_load hst (by simp [hsc])) ?_
          unfold Srv.load
          rw [← h1, hwg]
          split <;> omega
    · cases hm with
      | stopWaited k hk hle => exact old (by rw [hk]; show i < k; omega)
    · cases hm with
      | onStop hk => exact old (by rw [hk]; trivial)
  · rw [hm] at hc
    exact old hc

theorem orderly_run {ds : List Bool} {cs : List Call} {ls : List Label} {s : State} (h : (starting ds cs).run ls = some s) :
    ∀ i srv, s.servers[i]? = some srv → Orderly s.main i srv := by
  refine run_induct (Inv := fun s => ∀ i srv, s.servers[i]? = some srv → Orderly s.main i srv)
    (fun s l s' ho hs => orderly_step hs ho) ?_ h
  intro i srv hi
  simp only [starting, List.getElem?_map] at hi
  cases hd : ds[i]? with
  | none => rw [hd] at hi; cases hi
  | some d =>
    rw [hd] at hi; cases hi
    exact ⟨rfl, by intro h; exact h.elim, by intro h; exact h.elim⟩


theorem srv_notGot {s : State} {l : Label} {i : Nat} {srv srv' : Srv} (h : SrvStep s l i srv srv')
    (hc : (srv.closed || srv.expired) = true) (hg : srv.pc ≠ .got) : srv'.pc ≠ .got := by
  cases h with
  | same => exact hg
  | start => simp
  | pause => exact hg
  | stop => exact hg
  | recv => simp
  | loop a _ silent' h1 h2 =>
    unfold Srv.loop at h1
    split at h1
    · cases h1
    · cases h1; split <;> simp
    · split at h1
      · rw [hc] at h1; cases h1
      · cases h1; simp
    · cases h1; simp
    · cases h1; dsimp only; split <;> simp
    · cases h1
    · cases h1
  | conn j _ h1 h2 =>
    unfold Srv.conn at h1
    repeat' split at h1
    all_goals first | (cases h1; done) | (cases h1; exact hg)

/-- `run` is past the closing of the listeners. -/
def MainPc.closing : MainPc → Prop
  | .stopWait _ => True
  | .onStop => True
  | .done => True
  | _ => False

theorem closing_step {s s' : State} {l : Label} (h : s.step l = some s') (hc : s.main.closing) : s'.main.closing := by
  have hm := step_main h
  split at hm
  · cases hmm : s.main <;> rw [hmm] at hc <;> first | (exact hc.elim) | skip
    all_goals
      generalize s'.main = m at hm ⊢
      cases hm <;> first | trivial | simp_all
  · rw [hm]; exact hc

/-- What holds of the servers if no connection was being held when all listeners were closed. -/
structure Settled (m : MainPc) (i : Nat) (srv : Srv) : Prop where
  counts : srv.wg = srv.present
  closed : srv.closed = true
  empty : srv.pc ≠ .got
  waited : m.waited i → srv.present = 0

theorem load_present {srv : Srv} (h : srv.pc ≠ .got) : srv.load = srv.present := by
  unfold Srv.load; rw [if_neg h]; rfl

theorem settled_step {s s' : State} {l : Label} (h : s.step l = some s')
    (ho : ∀ i srv, s.servers[i]? = some srv → Settled s.main i srv) :
    ∀ i srv, s'.servers[i]? = some srv → Settled s'.main i srv := by
  intro i srv' hi
  obtain ⟨srv, hsrv, hst⟩ := step_servers h i srv' hi
  have hi' : i < s.servers.length := get_lt hsrv
  obtain ⟨h1, h2, h3, h4⟩ := ho i srv hsrv
  have hm := step_main h
  have hce : (srv.closed || srv.expired) = true := by simp [h2]
  have h3' := srv_notGot hst hce h3
  have hle : srv'.present ≤ srv.present := by
    have := srv_load hst hce
    rw [load_present h3, load_present h3'] at this; exact this
  refine ⟨srv_counts hst h1, srv_closed hst h2, h3', ?_⟩
  intro hw
  have old : s.main.waited i → srv'.present = 0 := fun hw => by have := h4 hw; omega
  split at hm
  · cases hmm : s'.main <;> rw [hmm] at hm hw <;> simp only [MainPc.waited] at hw
    · cases hm with
      | stopped => omega
      | stopWait k b hk hb hwg =>
        by_cases hik : i < k
        · exact old (by rw [hk]; exact hik)
        · have : i = k := by omega
          subst this
          rw [hsrv] at hb; cases hb
          omega
    · cases hm with
      | stopWaited k hk hle => exact old (by rw [hk]; show i < k; omega)
    · cases hm with
      | onStop hk => exact old (by rw [hk]; trivial)
  · rw [hm] at hw
    exact old hw

/-- Hooks and result, by where `run` is. -/
structure Phase (s : State) : Prop where
  starts : s.onStarts = (match s.main with | .start _ => 0 | .onStart => 0 | _ => 1)
  stops : s.onStops = (match s.main with | .done => 1 | _ => 0)
  result : s.result.isSome = (match s.main with | .start _ => false | .onStart => false | .recv => false | _ => true)

theorem phase_received {s : State} (h : Phase s) (hr : s.main = .recv) (t : State) (m) (h1 : t.onStarts = s.onStarts)
    (h2 : t.onStops = s.onStops) : Phase (t.received m) := by
  obtain ⟨a, b, c⟩ := h
  rw [hr] at a b
  by_cases hm : m = some (.http Status.ErrGracefulShutdown)
  · have hmain : (t.received m).main = .pause 0 := by simp [State.received, hm]
    constructor
    · rw [hmain]; exact h1.trans a
    · rw [hmain]; exact h2.trans b
    · rw [hmain]; rfl
  · have hmain : (t.received m).main = .stop 0 := by simp [State.received, hm]
    constructor
    · rw [hmain]; exact h1.trans a
    · rw [hmain]; exact h2.trans b
    · rw [hmain]; rfl

theorem phase_step {s s' : State} {l : Label} (h : s.step l = some s') (hp : Phase s) : Phase s' := by
  cases l with
  | main =>
    obtain ⟨a, b, c⟩ := hp
    simp only [State.step, State.mainStep] at h
    split at h <;> rename_i hm <;> rw [hm] at a b c <;> (try split at h) <;> (try split at h) <;> (try cases h) <;>
      (constructor <;> simp_all)
  | recvCall i =>
    simp only [State.step] at h
    split at h
    · split at h
      · split at h
        · cases h
        · cases h; exact phase_received hp (by assumption) _ _ rfl rfl
      · cases h
    · cases h
  | recvLoop i =>
    simp only [State.step] at h
    split at h
    · split at h
      · split at h
        · cases h; exact phase_received hp (by assumption) _ _ rfl rfl
        · cases h
      · cases h
    · cases h
  | loop i a =>
    simp only [State.step] at h
    split at h
    · split at h
      · cases h; exact ⟨hp.1, hp.2, hp.3⟩
      · cases h
    · cases h
  | conn i j =>
    simp only [State.step] at h
    split at h
    · split at h
      · cases h; exact ⟨hp.1, hp.2, hp.3⟩
      · cases h
    · cases h
  | call g =>
    simp only [State.step] at h
    cases h; exact ⟨hp.1, hp.2, hp.3⟩

theorem phase_run {ds : List Bool} {cs : List Call} {ls : List Label} {s : State} (h : (starting ds cs).run ls = some s) :
    Phase s :=
  run_induct (Inv := Phase) (fun _ _ _ hp hs => phase_step hs hp) ⟨rfl, rfl, rfl⟩ h

/-! ### Messages -/

/-- A step after something has been received neither changes the result nor lets a call return. -/
theorem late_step {s s' : State} {l : Label} (h : s.step l = some s') (hr : s.main ≠ .recv) :
    s'.result = s.result ∧ ∃ more, s'.calls = s.calls ++ more ∧ ∀ c ∈ more, c.returned = false := by
  cases l with
  | main =>
    simp only [State.step, State.mainStep] at h
    split at h <;> (try split at h) <;> (try split at h) <;> (try cases h) <;> exact ⟨rfl, [], by simp, by simp⟩
  | recvCall i => simp [State.step, hr] at h
  | recvLoop i => simp [State.step, hr] at h
  | loop i a =>
    simp only [State.step] at h
    split at h
    · split at h
      · cases h; exact ⟨rfl, [], by simp, by simp⟩
      · cases h
    · cases h
  | conn i j =>
    simp only [State.step] at h
    split at h
    · split at h
      · cases h; exact ⟨rfl, [], by simp, by simp⟩
      · cases h
    · cases h
  | call g =>
    simp only [State.step] at h
    cases h; exact ⟨rfl, _, rfl, by simp⟩

/-- `run` is past receiving. -/
def MainPc.late : MainPc → Prop
  | .start _ => False
  | .onStart => False
  | .recv => False
  | _ => True

theorem late_main {s s' : State} {l : Label} (h : s.step l = some s') (hc : s.main.late) : s'.main.late := by
  have hm := step_main h
  split at hm
  · cases hmm : s.main <;> rw [hmm] at hc <;> first | (exact hc.elim) | skip
    all_goals
      generalize s'.main = m at hm ⊢
      cases hm <;> first | trivial | simp_all
  · rw [hm]; exact hc

theorem late_run {ls : List Label} {s s' : State} (h : s.run ls = some s') (hc : s.main.late) :
    s'.result = s.result ∧ ∃ more, s'.calls = s.calls ++ more ∧ ∀ c ∈ more, c.returned = false := by
  have : s'.main.late ∧ s'.result = s.result ∧ ∃ more, s'.calls = s.calls ++ more ∧ ∀ c ∈ more, c.returned = false := by
    refine run_induct (Inv := fun t => t.main.late ∧ t.result = s.result ∧ ∃ more, t.calls = s.calls ++ more ∧
      ∀ c ∈ more, c.returned = false) ?_ ⟨hc, rfl, [], by simp, by simp⟩ h
    rintro t l t' ⟨h1, h2, more, h3, h4⟩ hs
    have hne : t.main ≠ .recv := by intro e; rw [e] at h1; exact h1
    obtain ⟨k1, more', k2, k3⟩ := late_step hs hne
    refine ⟨late_main hs h1, k1.trans h2, more ++ more', by rw [k2, h3, List.append_assoc], ?_⟩
    intro c hcm
    rcases List.mem_append.1 hcm with hcm | hcm
    · exact h4 c hcm
    · exact k3 c hcm
  exact this.2

/-! ### Progress -/

/-- Steps which remain to `run`. -/
def MainPc.rank (n : Nat) : MainPc → Nat
  | .start k => (n - k) + 4 * n + 8
  | .onStart => 4 * n + 7
  | .recv => 4 * n + 6
  | .pause k => (n - k) + 3 * n + 5
  | .pauseWait k => (n - k) + 2 * n + 4
  | .stop k => (n - k) + n + 3
  | .stopWait k => (n - k) + 2
  | .onStop => 1
  | .done => 0

/-- The counters of `run` do not exceed the number of servers. -/
def MainPc.within (n : Nat) : MainPc → Prop
  | .start k => k ≤ n
  | .pause k => k ≤ n
  | .pauseWait k => k ≤ n
  | .stop k => k ≤ n
  | .stopWait k => k ≤ n
  | _ => True


theorem within_step {s s' : State} {l : Label} (h : s.step l = some s') (hw : s.main.within s.servers.length) :
    s'.main.within s'.servers.length := by
  have hm := step_main h
  rw [step_length h]
  split at hm
  · rename_i hl
    have key : ∀ k, (s.main = .start k ∧ s'.main = .start (k + 1)) ∨ (s.main = .pause k ∧ s'.main = .pause (k + 1)) ∨
        (s.main = .stop k ∧ s'.main = .stop (k + 1)) → k < s.servers.length := by
      intro k hk
      have : l = .main := by
        cases l with
        | main => rfl
        | recvCall i => rcases hk with hk | hk | hk <;> simp [State.step, hk.1] at h
        | recvLoop i => rcases hk with hk | hk | hk <;> simp [State.step, hk.1] at h
        | _ => cases hl
      subst this
      rcases hk with hk | hk | hk
      all_goals
        simp only [State.step, State.mainStep, hk.1] at h
        split at h
        · exact get_lt (by assumption)
        · cases h; cases hk.2
    generalize hmm : s'.main = m at hm key ⊢
    cases hm with
    | start k hk => exact key k (.inl ⟨hk, rfl⟩)
    | pause k hk => exact key k (.inr (.inl ⟨hk, rfl⟩))
    | stop k hk => exact key k (.inr (.inr ⟨hk, rfl⟩))
    | pauseWait k b hk hb => exact get_lt hb
    | stopWait k b hk hb => exact get_lt hb
    | started => trivial
    | onStart => trivial
    | recvGraceful => exact Nat.zero_le _
    | recv => exact Nat.zero_le _
    | paused => exact Nat.zero_le _
    | pauseWaited => exact Nat.zero_le _
    | stopped => exact Nat.zero_le _
    | stopWaited => trivial
    | onStop => trivial
  · rw [hm]; exact hw

theorem rank_step {s s' : State} {l : Label} (h : s.step l = some s') (hw : s.main.within s.servers.length) :
    s'.main.rank s.servers.length + (if l.isMain then 1 else 0) ≤ s.main.rank s.servers.length := by
  have hw' := within_step h hw
  rw [step_length h] at hw'
  have hm := step_main h
  split at hm
  · generalize hmm : s'.main = m at hm hw' ⊢
    cases hm <;> rename_i hk <;> (try rename_i hk2) <;> simp_all [MainPc.rank, MainPc.within] <;> omega
  · rw [hm]; simp_all

theorem rank_run {ls : List Label} {s s' : State} (h : s.run ls = some s') (hw : s.main.within s.servers.length) :
    s'.main.rank s.servers.length + (ls.filter Label.isMain).length ≤ s.main.rank s.servers.length := by
  induction ls generalizing s with
  | nil => cases h; simp
  | cons l ls ih =>
    simp only [State.run] at h
    cases hs : s.step l with
    | none => rw [hs] at h; cases h
    | some s1 =>
      rw [hs] at h
      have h1 := rank_step hs hw
      have h2 := ih h (within_step hs hw)
      rw [step_length hs] at h2
      cases hl : l.isMain <;> simp [hl] at h1 ⊢ <;> omega


/-- Invariants which may depend on the labels. -/
theorem run_induct_mem {Inv : State → Prop} {ls : List Label} (hstep : ∀ s l s', l ∈ ls → Inv s → s.step l = some s' → Inv s') :
    ∀ {s s'}, Inv s → s.run ls = some s' → Inv s' := by
  induction ls with
  | nil => intro s s' h hr; cases hr; exact h
  | cons l ls ih =>
    intro s s' h hr
    simp only [State.run] at hr
    cases hs : s.step l with
    | none => rw [hs] at hr; cases hr
    | some s1 =>
      rw [hs] at hr
      exact ih (fun s l s' hl => hstep s l s' (List.mem_cons_of_mem _ hl)) (hstep _ _ _ (by simp) h hs) hr

/-- A message which has a cause among the labels. -/
def Caused (ls : List Label) (m : Option GoErr) : Prop :=
  (Label.call true ∈ ls ∧ m = some (.http Status.ErrGracefulShutdown)) ∨
  (Label.call false ∈ ls ∧ m = some (.http Status.ErrShutdown)) ∨
  (∃ i e, Label.loop i (.error e) ∈ ls ∧ m = some e)

structure Causal (ls : List Label) (s : State) : Prop where
  result : ∀ m, s.result = some m → Caused ls m
  calls : ∀ c ∈ s.calls, Caused ls c.msg
  loops : ∀ (i : Nat) (srv : Srv), s.servers[i]? = some srv → (∀ e, srv.pc = .returned e ∨ srv.pc = .send e → Caused ls e ∨ s.main.late) ∧
    (srv.shutdown = true → s.main.late)

theorem not_late_recv {s : State} (h : s.main = .recv) : ¬ s.main.late := by rw [h]; exact id

theorem causal_step {ls : List Label} {s s' : State} {l : Label} (hl : l ∈ ls) (h : Causal ls s) (hs : s.step l = some s') :
    Causal ls s' := by
  have hm := step_main hs
  have hlate : s.main.late → s'.main.late := late_main hs
  refine ⟨?_, ?_, ?_⟩
  · intro m hr
    cases l with
    | recvCall i =>
      simp only [State.step] at hs
      split at hs
      · split at hs
        · rename_i c hc
          split at hs
          · cases hs
          · cases hs; cases hr; exact h.calls c (List.mem_of_getElem? hc)
        · cases hs
      · cases hs
    | recvLoop i =>
      simp only [State.step] at hs
      split at hs
      · rename_i hrecv
        split at hs
        · rename_i srv hsrv
          split at hs
          · rename_i e he
            cases hs; cases hr
            rcases (h.loops i srv hsrv).1 _ (.inr he) with h1 | h1
            · exact h1
            · exact absurd h1 (not_late_recv hrecv)
          · cases hs
        · cases hs
      · cases hs
    | main =>
      apply h.result
      rw [← hr]
      simp only [State.step, State.mainStep] at hs
      split at hs <;> (try split at hs) <;> (try split at hs) <;> (try cases hs) <;> rfl
    | loop i a =>
      apply h.result
      rw [← hr]
      simp only [State.step] at hs
      split at hs
      · split at hs
        · cases hs; rfl
        · cases hs
      · cases hs
    | conn i j =>
      apply h.result
      rw [← hr]
      simp only [State.step] at hs
      split at hs
      · split at hs
        · cases hs; rfl
        · cases hs
      · cases hs
    | call g =>
      apply h.result
      rw [← hr]
      simp only [State.step] at hs
      cases hs; rfl
  · cases l with
    | recvCall i =>
      simp only [State.step] at hs
      split at hs
      · split at hs
        · rename_i c hc
          split at hs
          · cases hs
          · cases hs
            intro c' hc'
            rcases List.mem_or_eq_of_mem_set hc' with h1 | h1
            · exact h.calls c' h1
            · rw [h1]; exact h.calls c (List.mem_of_getElem? hc)
        · cases hs
      · cases hs
    | recvLoop i =>
      simp only [State.step] at hs
      split at hs
      · split at hs
        · split at hs
          · cases hs; exact h.calls
          · cases hs
        · cases hs
      · cases hs
    | main =>
      simp only [State.step, State.mainStep] at hs
      split at hs <;> (try split at hs) <;> (try split at hs) <;> (try cases hs) <;> exact h.calls
    | loop i a =>
      simp only [State.step] at hs
      split at hs
      · split at hs
        · cases hs; exact h.calls
        · cases hs
      · cases hs
    | conn i j =>
      simp only [State.step] at hs
      split at hs
      · split at hs
        · cases hs; exact h.calls
        · cases hs
      · cases hs
    | call g =>
      simp only [State.step] at hs
      cases hs
      intro c hc
      rcases List.mem_append.1 hc with h1 | h1
      · exact h.calls c h1
      · simp only [List.mem_singleton] at h1
        subst h1
        cases g
        · exact .inr (.inl ⟨hl, rfl⟩)
        · exact .inl ⟨hl, rfl⟩
  · intro i srv' hi
    obtain ⟨srv, hsrv, hst⟩ := step_servers hs i srv' hi
    obtain ⟨h1, h2⟩ := h.loops i srv hsrv
    have h1' : ∀ e, srv.pc = .returned e ∨ srv.pc = .send e → Caused ls e ∨ s'.main.late := fun e he =>
      (h1 e he).imp id hlate
    cases hst with
    | same => exact ⟨h1', fun h => hlate (h2 h)⟩
    | start => exact ⟨by simp, fun h => hlate (h2 h)⟩
    | pause hp => exact ⟨h1', fun _ => hlate (by rw [hp]; trivial)⟩
    | stop => exact ⟨h1', fun h => hlate (h2 h)⟩
    | recv => exact ⟨by simp, fun h => hlate (h2 h)⟩
    | loop a _ silent' k1 k2 =>
      subst k2
      unfold Srv.loop at k1
      split at k1
      · cases k1
      · cases k1
        constructor
        · intro e he
          split at he
          · right; exact hlate (h2 (by assumption))
          · simp at he
        · split <;> exact fun h => hlate (h2 h)
      · split at k1
        · split at k1
          · cases k1
          · cases k1; exact ⟨by simp, fun h => hlate (h2 h)⟩
        · cases k1
          refine ⟨?_, fun h => hlate (h2 h)⟩
          intro e he
          simp at he
          left; right; right
          exact ⟨i, _, hl, he.symm⟩
      · cases k1; exact ⟨by simp, fun h => hlate (h2 h)⟩
      · rename_i e0 hpc
        cases k1
        refine ⟨?_, fun h => hlate (h2 h)⟩
        intro e he
        dsimp only at he
        split at he
        · simp at he
        · simp at he; subst he; exact h1' _ (.inl hpc)
      · cases k1
      · cases k1
    | conn j _ k1 k2 =>
      unfold Srv.conn at k1
      repeat' split at k1
      all_goals first | (cases k1; done) | (cases k1; exact ⟨h1', fun h => hlate (h2 h)⟩)

theorem causal_run {ds : List Bool} {ls : List Label} {s : State} (h : (starting ds).run ls = some s) : Causal ls s := by
  refine run_induct_mem (Inv := Causal ls) (fun s l s' hl hc hs => causal_step hl hc hs) ⟨?_, ?_, ?_⟩ h
  · intro m hm; cases hm
  · intro c hc; cases hc
  · intro i srv hi
    simp only [starting, List.getElem?_map] at hi
    cases hd : ds[i]? with
    | none => rw [hd] at hi; cases hi
    | some d => rw [hd] at hi; cases hi; exact ⟨by simp, by simp⟩


/-! ### Pausing -/

/-- `run` has paused the i-th server. -/
def MainPc.paused (i : Nat) : MainPc → Prop
  | .pause k => i < k
  | .pauseWait _ => True
  | _ => False

theorem srv_paused {s : State} {l : Label} {i : Nat} {srv srv' : Srv} (h : SrvStep s l i srv srv') :
    srv'.deadliner = srv.deadliner ∧ (srv.shutdown = true → srv'.shutdown = true) ∧
    (srv.expired = srv.deadliner → srv'.expired = srv'.deadliner) ∧ srv.conns.length ≤ srv'.conns.length := by
  cases h with
  | same => exact ⟨rfl, id, id, Nat.le_refl _⟩
  | start => exact ⟨rfl, id, id, Nat.le_refl _⟩
  | pause => exact ⟨rfl, fun _ => rfl, fun h => by simp [Srv.pause, h], Nat.le_refl _⟩
  | stop => exact ⟨rfl, id, id, Nat.le_refl _⟩
  | recv => exact ⟨rfl, id, id, Nat.le_refl _⟩
  | loop a _ silent' h1 h2 =>
    unfold Srv.loop at h1
    repeat' split at h1
    all_goals first | (cases h1; done) | (cases h1; first | (split; all_goals exact ⟨rfl, id, id, by simp⟩) | exact ⟨rfl, id, id, by simp⟩)
  | conn j _ h1 h2 =>
    unfold Srv.conn at h1
    repeat' split at h1
    all_goals first | (cases h1; done) | (cases h1; exact ⟨rfl, id, id, by simp⟩)

theorem pause_step {s s' : State} {l : Label} (h : s.step l = some s') {k : Nat} (hk : s.main = .pause k)
    (hk' : s'.main = .pause (k + 1)) : ∀ srv', s'.servers[k]? = some srv' → ∃ srv, s.servers[k]? = some srv ∧ srv' = srv.pause := by
  have hm := step_main h
  split at hm
  · rename_i hl
    have : l = .main := by
      cases l with
      | main => rfl
      | recvCall i => simp [State.step, hk] at h
      | recvLoop i => simp [State.step, hk] at h
      | _ => cases hl
    subst this
    simp only [State.step, State.mainStep, hk] at h
    split at h
    · rename_i srv hsrv
      cases h
      intro srv' hs
      rw [List.getElem?_set] at hs
      simp at hs
      exact ⟨srv, hsrv, hs.2.symm⟩
    · cases h; cases hk'
  · rw [hm, hk] at hk'; simp at hk'

/-- The deadline is passed only where there is one; a paused server is to stop, and its deadline, if any, has passed. -/
structure Pausing (m : MainPc) (i : Nat) (srv : Srv) : Prop where
  none : srv.deadliner = false → srv.expired = false
  paused : m.paused i → srv.shutdown = true ∧ srv.expired = srv.deadliner

theorem pausing_step {s s' : State} {l : Label} (h : s.step l = some s')
    (ho : ∀ i srv, s.servers[i]? = some srv → Pausing s.main i srv) :
    ∀ i srv, s'.servers[i]? = some srv → Pausing s'.main i srv := by
  intro i srv' hi
  obtain ⟨srv, hsrv, hst⟩ := step_servers h i srv' hi
  have hi' : i < s.servers.length := get_lt hsrv
  obtain ⟨h1, h2⟩ := ho i srv hsrv
  obtain ⟨k1, k2, k3, _⟩ := srv_paused hst
  have hm := step_main h
  refine ⟨?_, ?_⟩
  · intro hd
    rw [k1] at hd
    have := k3 (by rw [h1 hd, hd])
    rw [this, k1, hd]
  · intro hp
    have old : s.main.paused i → srv'.shutdown = true ∧ srv'.expired = srv'.deadliner := fun hp =>
      ⟨k2 (h2 hp).1, k3 (h2 hp).2⟩
    split at hm
    · cases hmm : s'.main <;> rw [hmm] at hm hp <;> simp only [MainPc.paused] at hp
      · cases hm with
        | recvGraceful => omega
        | pause k hk =>
          by_cases hik : i < k
          · exact old (by rw [hk]; exact hik)
          · have : i = k := by omega
            subst this
            obtain ⟨b, hb, rfl⟩ := pause_step h hk hmm srv' hi
            rw [hsrv] at hb; cases hb
            refine ⟨rfl, ?_⟩
            show (srv.expired || srv.deadliner) = srv.deadliner
            cases hd : srv.deadliner
            · simp [h1 hd]
            · simp
      · cases hm with
        | paused k hk hle => exact old (by rw [hk]; show i < k; omega)
        | pauseWait k _ hk _ _ => exact old (by rw [hk]; trivial)
    · rw [hm] at hp; exact old hp

theorem pausing_run {ds : List Bool} {cs : List Call} {ls : List Label} {s : State} (h : (starting ds cs).run ls = some s) :
    ∀ i srv, s.servers[i]? = some srv → Pausing s.main i srv := by
  refine run_induct (Inv := fun s => ∀ i srv, s.servers[i]? = some srv → Pausing s.main i srv)
    (fun s l s' ho hs => pausing_step hs ho) ?_ h
  intro i srv hi
  simp only [starting, List.getElem?_map] at hi
  cases hd : ds[i]? with
  | none => rw [hd] at hi; cases hi
  | some d =>
    rw [hd] at hi; cases hi
    exact ⟨fun _ => rfl, by intro h; exact h.elim⟩

/-- Connections a paused server has had, and may still get. -/
def Srv.potential (s : Srv) : Nat := s.conns.length + (if s.pc = .got ∨ (s.pc = .accept ∧ s.expired = false) then 1 else 0)

theorem srv_potential {s : State} {l : Label} {i : Nat} {srv srv' : Srv} (h : SrvStep s l i srv srv') (hl : s.main.late)
    (hs : srv.shutdown = true) : srv'.potential ≤ srv.potential := by
  cases h with
  | same => exact Nat.le_refl _
  | start h => rw [h] at hl; exact hl.elim
  | pause =>
    unfold Srv.potential
    have : (srv.pause.pc = .got ∨ (srv.pause.pc = .accept ∧ srv.pause.expired = false)) →
        (srv.pc = .got ∨ (srv.pc = .accept ∧ srv.expired = false)) := by
      rintro (h | ⟨h, h'⟩)
      · exact .inl h
      · exact .inr ⟨h, by simp [Srv.pause] at h'; exact h'.1⟩
    show srv.conns.length + _ ≤ _
    by_cases hc : srv.pc = .got ∨ (srv.pc = .accept ∧ srv.expired = false)
    · rw [if_pos hc]; split <;> omega
    · rw [if_neg (fun h => hc (this h))]; omega
  | stop => exact Nat.le_refl _
  | recv e _ hp => simp [Srv.potential]
  | loop a _ silent' h1 h2 =>
    unfold Srv.loop at h1
    split at h1
    · cases h1
    · cases h1; rw [hs]; simp [Srv.potential]
    · rename_i hpc
      split at h1
      · split at h1
        · cases h1
        · rename_i hce
          cases h1
          have : srv.expired = false := by simp at hce; exact hce.2
          simp [Srv.potential, hpc, this]
      · cases h1; simp [Srv.potential]
    · rename_i hpc
      cases h1; simp [Srv.potential, hpc]
    · cases h1; simp only [Srv.potential]; split <;> simp
    · cases h1
    · cases h1
  | conn j _ h1 h2 =>
    unfold Srv.conn at h1
    repeat' split at h1
    all_goals first | (cases h1; done) | (cases h1; simp [Srv.potential])

theorem potential_run {ls : List Label} {s s' : State} (h : s.run ls = some s') (hl : s.main.late)
    (hs : ∀ srv ∈ s.servers, srv.shutdown = true) :
    ∀ (i : Nat) (srv' : Srv), s'.servers[i]? = some srv' →
      ∃ srv : Srv, s.servers[i]? = some srv ∧ srv'.potential ≤ srv.potential ∧ srv.conns.length ≤ srv'.conns.length := by
  have : s'.main.late ∧ ∀ (i : Nat) (srv' : Srv), s'.servers[i]? = some srv' → srv'.shutdown = true ∧
      ∃ srv : Srv, s.servers[i]? = some srv ∧ srv'.potential ≤ srv.potential ∧ srv.conns.length ≤ srv'.conns.length := by
    refine run_induct (Inv := fun s' => s'.main.late ∧ ∀ (i : Nat) (srv' : Srv), s'.servers[i]? = some srv' → srv'.shutdown = true ∧
      ∃ srv : Srv, s.servers[i]? = some srv ∧ srv'.potential ≤ srv.potential ∧ srv.conns.length ≤ srv'.conns.length) ?_ ?_ h
    · rintro t l t' ⟨h1, h2⟩ hst
      refine ⟨late_main hst h1, ?_⟩
      intro i srv' hi
      obtain ⟨b, hb, hbs⟩ := step_servers hst i srv' hi
      obtain ⟨k1, srv, k2, k3, k4⟩ := h2 i b hb
      obtain ⟨_, q2, _, q4⟩ := srv_paused hbs
      exact ⟨q2 k1, srv, k2, Nat.le_trans (srv_potential hbs h1 k1) k3, Nat.le_trans k4 q4⟩
    · exact ⟨hl, fun i srv hi => ⟨hs srv (List.mem_of_getElem? hi), srv, hi, Nat.le_refl _, Nat.le_refl _⟩⟩
  exact fun i srv' hi => (this.2 i srv' hi).2

end Indigo.App
