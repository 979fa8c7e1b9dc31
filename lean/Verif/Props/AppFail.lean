/-
C47: listeners which fail.
-/
import Verif.Proofs.AppFail

namespace Indigo.App

/-- **C47**: a failing listener ends the application. When `run` waits for a message and the accept loop of some listener has returned, then within
two steps, whatever has happened before, it has received the error of one which did, and begins to stop all of them. -/
theorem C47_listener_failure (deadliners : List Bool) (s : State) (h : Reachable deadliners s) (waiting : s.main = .recv) (i : Nat) (srv : Srv)
    (hi : s.servers[i]? = some srv) (failed : (∃ e, srv.pc = .returned e) ∨ (∃ e, srv.pc = .send e) ∨ srv.pc = .over) :
    ∃ (j : Nat) (e : Option GoErr) (before : List Label) (s' : State), before.length ≤ 1 ∧ (∀ l ∈ before, ∃ a, l = .loop i a) ∧
      s.run (before ++ [.recvLoop j]) = some s' ∧ s'.result = some e ∧
      s'.main = (if e = some (.http Status.ErrGracefulShutdown) then .pause 0 else .stop 0) := by
  obtain ⟨ls, h⟩ := h
  have hf := failing_run h
  have hres : s.result = none := by
    have := (phase_run h).result
    rw [waiting] at this
    simpa using this
  have send : ∀ (t : State), t.main = .recv → ∀ (j : Nat) (e : Option GoErr), (t.servers[j]?).map Srv.pc = some (.send e) →
      ∃ s', t.step (.recvLoop j) = some s' ∧ s'.result = some e ∧
        s'.main = (if e = some (.http Status.ErrGracefulShutdown) then .pause 0 else .stop 0) := by
    intro t ht j e hj
    cases hs : t.servers[j]? with
    | none => rw [hs] at hj; cases hj
    | some x =>
      rw [hs] at hj
      simp only [Option.map_some, Option.some.injEq] at hj
      exact ⟨_, by simp only [State.step, ht, hs, hj]; rfl, rfl, rfl⟩
  by_cases hq : s.failSilently = true
  · obtain ⟨j, e, hj⟩ := hf.sending hq hres
    obtain ⟨s', h1, h2, h3⟩ := send s waiting j e hj
    exact ⟨j, e, [], s', by simp, by simp, by simp [State.run, h1], h2, h3⟩
  · have hq : s.failSilently = false := by simpa using hq
    have hne := hf.silent hq i srv.pc (by rw [hi]; rfl)
    rcases failed with ⟨e, he⟩ | ⟨e, he⟩ | he
    · let t : State := { s with servers := s.servers.set i { srv with pc := .send e }, failSilently := true }
      have hl : s.step (.loop i .conn) = some t := by
        simp only [State.step, hi, Srv.loop, he, hq]
        rfl
      obtain ⟨s', h1, h2, h3⟩ := send t waiting i e (by
        change ((s.servers.set i { srv with pc := .send e })[i]?).map Srv.pc = _
        rw [set_pc hi, if_pos rfl])
      exact ⟨i, e, [.loop i .conn], s', by simp, by simp, by simp [State.run, hl, h1], h2, h3⟩
    · rw [he] at hne; cases hne
    · rw [he] at hne; cases hne

private theorem mem_pc {s : State} {srv : Srv} (h : srv ∈ s.servers) : ∃ i : Nat, (s.servers[i]?).map Srv.pc = some srv.pc := by
  obtain ⟨i, hi⟩ := List.getElem?_of_mem h
  exact ⟨i, by rw [hi]; rfl⟩

/-- **C47**: only one of the failing listeners reports it: at no time do two of their goroutines wait for `run`; and when `run` has taken the report,
there will not be another one, so that no goroutine of a listener is left behind waiting. -/
theorem C47_one_report (deadliners : List Bool) (ls : List Label) (s : State) (h : (starting deadliners).run ls = some s) :
    (∀ (i j : Nat) (a b : Srv) (e e' : Option GoErr), s.servers[i]? = some a → s.servers[j]? = some b → a.pc = .send e → b.pc = .send e' → i = j) ∧
    (∀ i, Label.recvLoop i ∈ ls → ∀ srv ∈ s.servers, ∀ e, srv.pc ≠ .send e) := by
  refine ⟨fun i j a b e e' hi hj ha hb => (failing_run h).one i j e e' (by rw [hi, ← ha]; rfl) (by rw [hj, ← hb]; rfl), ?_⟩
  intro i hm
  obtain ⟨l1, l2, rfl⟩ := List.append_of_mem hm
  rw [run_append] at h
  cases h1 : (starting deadliners).run l1 with
  | none => rw [h1] at h; cases h
  | some t =>
    rw [h1] at h
    simp only [Option.bind_some, State.run] at h
    cases h2 : t.step (.recvLoop i) with
    | none => rw [h2] at h; cases h
    | some u =>
      rw [h2] at h
      let Quiet : State → Prop := fun s => s.failSilently = true ∧ (∀ j, s.main ≠ .start j) ∧
        ∀ (k : Nat) (e : Option GoErr), (s.servers[k]?).map Srv.pc ≠ some (.send e)
      have hu : Quiet u := by
        have hf := failing_run h1
        simp only [State.step] at h2
        split at h2
        · split at h2
          · next srv hi =>
            split at h2
            · next e he =>
              have hi' : (t.servers[i]?).map Srv.pc = some (.send e) := by rw [hi, ← he]; rfl
              cases h2
              refine ⟨?_, ?_, ?_⟩
              · cases hs : t.failSilently with
                | true => simp [State.received]
                | false =>
                  have := hf.silent hs i _ hi'
                  cases this
              · intro j hj
                simp only [State.received] at hj
                split at hj <;> cases hj
              · intro k e' hk
                rw [received_servers] at hk
                change ((t.servers.set i { srv with pc := .over })[k]?).map Srv.pc = _ at hk
                rw [set_pc hi] at hk
                split at hk
                · cases hk
                · next hne => exact hne (hf.one k i e' e hk hi')
            · cases h2
          · cases h2
        · cases h2
      have hq : Quiet s := by
        refine run_induct (Inv := Quiet) (fun a l b hq hs => ?_) hu h
        obtain ⟨q1, q2, q3⟩ := hq
        cases pc_step hs with
        | same h1 h2 _ h4 =>
          refine ⟨h2.trans q1, fun j hj => ?_, fun k e => by rw [h1]; exact q3 k e⟩
          obtain ⟨j', _, hj'⟩ := h4 j hj
          exact q2 j' hj'
        | start k hm => exact absurd hm (q2 k)
        | recv k e hk => exact absurd hk (q3 k e)
        | goes k pc pc' _ _ _ h3 _ h5 h6 _ h8 =>
          refine ⟨h6.trans q1, by rw [h8]; exact q2, fun j e => ?_⟩
          rw [h5]
          split
          · intro hc; cases hc; cases h3
          · exact q3 j e
        | ends k e _ h2 h3 _ h5 =>
          refine ⟨h3, by rw [h5]; exact q2, fun j e => ?_⟩
          rw [h2, q1]
          split
          · simp
          · exact q3 j e
      intro srv hsrv e he
      obtain ⟨k, hk⟩ := mem_pc hsrv
      exact hq.2.2 k e (by rw [hk, he])

/-- Two listeners fail, one after another, before `run` gets to receive. -/
def twoFail : List Label :=
  [.main, .main, .main, .main, .loop 0 .conn, .loop 1 .conn, .loop 0 (.error (.other 7)), .loop 1 (.error (.other 8)), .loop 1 .conn, .loop 0 .conn]

/-- C47: then the first of them to report is heard. -/
example : ∃ s, Reachable [true, false] s ∧ s.main = .recv ∧ s.servers.map Srv.pc = [.over, .send (some (.other 8))] ∧
    ∃ s', s.run [.recvLoop 1] = some s' ∧ s'.result = some (some (.other 8)) ∧ s'.main = .stop 0 :=
  ⟨_, ⟨twoFail, rfl⟩, by decide, by decide, _, rfl, by decide, by decide⟩

end Indigo.App
