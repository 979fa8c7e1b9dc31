/-
Failing listeners: lemmas.
-/
import Verif.Proofs.App

namespace Indigo.App

/-- The goroutine of a server has come to its end, or to sending. -/
def LoopPc.ended : LoopPc → Bool
  | .send _ => true
  | .over => true
  | _ => false

/-- What a step does to the places of the servers' goroutines, to `failSilently` and to the result. -/
inductive PcStep (s s' : State) : Prop
  | same : (∀ i : Nat, (s'.servers[i]?).map Srv.pc = (s.servers[i]?).map Srv.pc) → s'.failSilently = s.failSilently →
      (s'.result = none → s.result = none) → (∀ k, s'.main = .start k → ∃ j, j ≤ k ∧ s.main = .start j) → PcStep s s'
  | start (k : Nat) : s.main = .start k → s'.main = .start (k + 1) →
      (∀ i : Nat, (s'.servers[i]?).map Srv.pc = if i = k then (s.servers[i]?).map (fun _ => LoopPc.check) else (s.servers[i]?).map Srv.pc) →
      s'.failSilently = s.failSilently → s'.result = s.result → PcStep s s'
  | recv (k : Nat) (e : Option GoErr) : (s.servers[k]?).map Srv.pc = some (.send e) →
      (∀ i : Nat, (s'.servers[i]?).map Srv.pc = if i = k then some .over else (s.servers[i]?).map Srv.pc) →
      s'.failSilently = s.failSilently → s'.result ≠ none → (∀ j, s'.main ≠ .start j) → PcStep s s'
  | goes (k : Nat) (pc pc' : LoopPc) : (s.servers[k]?).map Srv.pc = some pc → pc.ended = false → pc ≠ .unstarted → pc'.ended = false → pc' ≠ .unstarted →
      (∀ i : Nat, (s'.servers[i]?).map Srv.pc = if i = k then some pc' else (s.servers[i]?).map Srv.pc) →
      s'.failSilently = s.failSilently → s'.result = s.result → s'.main = s.main → PcStep s s'
  | ends (k : Nat) (e : Option GoErr) : (s.servers[k]?).map Srv.pc = some (.returned e) →
      (∀ i : Nat, (s'.servers[i]?).map Srv.pc = if i = k then some (if s.failSilently then .over else .send e) else (s.servers[i]?).map Srv.pc) →
      s'.failSilently = true → s'.result = s.result → s'.main = s.main → PcStep s s'

theorem set_pc {ss : List Srv} {k : Nat} {b b' : Srv} (hk : ss[k]? = some b) (i : Nat) :
    ((ss.set k b')[i]?).map Srv.pc = if i = k then some b'.pc else (ss[i]?).map Srv.pc := by
  rw [List.getElem?_set]
  have hl := get_lt hk
  by_cases h : k = i
  · subst h; simp [hl]
  · rw [if_neg h, if_neg (fun e => h e.symm)]

theorem set_same {ss : List Srv} {k : Nat} {b b' : Srv} (hk : ss[k]? = some b) (hp : b'.pc = b.pc) (i : Nat) :
    ((ss.set k b')[i]?).map Srv.pc = (ss[i]?).map Srv.pc := by
  rw [set_pc hk]
  split
  · subst_vars; simp [hk, hp]
  · rfl

theorem pc_step {s s' : State} {l : Label} (h : s.step l = some s') : PcStep s s' := by
  cases l with
  | main =>
    simp only [State.step, State.mainStep] at h
    split at h
    · next k hm =>
      split at h
      · next srv hk =>
        cases h
        refine .start k hm rfl (fun i => ?_) rfl rfl
        simp only [set_pc hk]
        split
        · subst_vars; simp [hk]
        · rfl
      · cases h; exact .same (fun _ => rfl) rfl id (by simp)
    · cases h; exact .same (fun _ => rfl) rfl id (by simp)
    · cases h
    · split at h
      · next srv hk => cases h; exact .same (set_same hk rfl) rfl id (by simp)
      · cases h; exact .same (fun _ => rfl) rfl id (by simp)
    · split at h
      · split at h
        · cases h; exact .same (fun _ => rfl) rfl id (by simp)
        · cases h
      · cases h; exact .same (fun _ => rfl) rfl id (by simp)
    · split at h
      · next srv hk => cases h; exact .same (set_same hk rfl) rfl id (by simp)
      · cases h; exact .same (fun _ => rfl) rfl id (by simp)
    · split at h
      · split at h
        · cases h; exact .same (fun _ => rfl) rfl id (by simp)
        · cases h
      · cases h; exact .same (fun _ => rfl) rfl id (by simp)
    · cases h; exact .same (fun _ => rfl) rfl id (by simp)
    · cases h
  | recvCall i =>
    simp only [State.step] at h
    split at h
    · split at h
      · split at h
        · cases h
        · cases h
          refine .same (fun _ => rfl) rfl (by simp [State.received]) (fun k hk => ?_)
          simp only [State.received] at hk
          split at hk <;> cases hk
      · cases h
    · cases h
  | recvLoop i =>
    simp only [State.step] at h
    split at h
    · split at h
      · next srv hk =>
        split at h
        · next e hpc =>
          cases h
          refine .recv i e (by simp [hk, hpc]) (fun j => ?_) rfl (by simp [State.received]) (fun j hj => ?_)
          · rw [received_servers]; exact set_pc hk j
          · simp only [State.received] at hj
            split at hj <;> cases hj
        · cases h
      · cases h
    · cases h
  | loop i a =>
    simp only [State.step] at h
    split at h
    · next srv hk =>
      split at h
      · next srv' silent hl =>
        cases h
        unfold Srv.loop at hl
        split at hl
        · cases hl
        · next hpc =>
          by_cases hs : srv.shutdown = true
          · rw [if_pos hs] at hl
            cases hl
            exact .goes i _ (.returned none) (by simp [hk, hpc]; rfl) rfl (by simp) rfl (by simp) (set_pc hk) rfl rfl rfl
          · rw [if_neg hs] at hl
            cases hl
            exact .goes i _ .accept (by simp [hk, hpc]; rfl) rfl (by simp) rfl (by simp) (set_pc hk) rfl rfl rfl
        · next hpc =>
          split at hl
          · split at hl
            · cases hl
            · cases hl
              exact .goes i _ .got (by simp [hk, hpc]; rfl) rfl (by simp) rfl (by simp) (set_pc hk) rfl rfl rfl
          · cases hl
            exact .goes i _ (.returned _) (by simp [hk, hpc]; rfl) rfl (by simp) rfl (by simp) (set_pc hk) rfl rfl rfl
        · next hpc =>
          cases hl
          exact .goes i _ .check (by simp [hk, hpc]; rfl) rfl (by simp) rfl (by simp) (set_pc hk) rfl rfl rfl
        · next e hpc =>
          cases hl
          exact .ends i e (by simp [hk, hpc]) (set_pc hk) rfl rfl rfl
        · cases hl
        · cases hl
      · cases h
    · cases h
  | conn i j =>
    simp only [State.step] at h
    split at h
    · next srv hk =>
      split at h
      · next srv' hc =>
        cases h
        refine .same (set_same hk ?_) rfl id (fun k hk => ⟨k, Nat.le_refl _, hk⟩)
        unfold Srv.conn at hc
        split at hc <;> cases hc <;> rfl
      · cases h
    · cases h
  | call g =>
    simp only [State.step] at h
    cases h; exact .same (fun _ => rfl) rfl id (fun k hk => ⟨k, Nat.le_refl _, hk⟩)

/-- As long as nothing has been received, the first failing listener is sending. -/
structure Failing (s : State) : Prop where
  later : ∀ k, s.main = .start k → ∀ (i : Nat) (pc : LoopPc), k ≤ i → (s.servers[i]?).map Srv.pc = some pc → pc = .unstarted
  silent : s.failSilently = false → ∀ (i : Nat) (pc : LoopPc), (s.servers[i]?).map Srv.pc = some pc → pc.ended = false
  sending : s.failSilently = true → s.result = none → ∃ (i : Nat) (e : Option GoErr), (s.servers[i]?).map Srv.pc = some (.send e)
  one : ∀ (i j : Nat) (e e' : Option GoErr), (s.servers[i]?).map Srv.pc = some (.send e) → (s.servers[j]?).map Srv.pc = some (.send e') → i = j

theorem failing_step {s s' : State} {l : Label} (hp : Failing s) (h : s.step l = some s') : Failing s' := by
  obtain ⟨a, b, c, d⟩ := hp
  cases pc_step h with
  | same h1 h2 h3 h4 =>
    refine ⟨?_, ?_, ?_, ?_⟩
    · intro k hk i pc hi hpc
      obtain ⟨j, hj, hm⟩ := h4 k hk
      rw [h1] at hpc
      exact a j hm i pc (by omega) hpc
    · rw [h2]; intro hs i pc hpc; rw [h1] at hpc; exact b hs i pc hpc
    · rw [h2]; intro hs hr
      obtain ⟨i, e, hi⟩ := c hs (h3 hr)
      exact ⟨i, e, by rw [h1]; exact hi⟩
    · intro i j e e' hi hj
      rw [h1] at hi hj
      exact d i j e e' hi hj
  | start k hm hm' h1 h2 h3 =>
    have old : ∀ (i : Nat) (pc : LoopPc), (s'.servers[i]?).map Srv.pc = some pc → pc = .check ∨ (i ≠ k ∧ (s.servers[i]?).map Srv.pc = some pc) := by
      intro i pc hpc
      rw [h1] at hpc
      split at hpc
      · cases hs : s.servers[i]? with
        | none => rw [hs] at hpc; cases hpc
        | some x => rw [hs] at hpc; cases hpc; exact .inl rfl
      · exact .inr ⟨by assumption, hpc⟩
    refine ⟨?_, ?_, ?_, ?_⟩
    · intro k' hk i pc hi hpc
      rw [hm'] at hk
      cases hk
      rw [h1, if_neg (by omega)] at hpc
      exact a k hm i pc (by omega) hpc
    · rw [h2]; intro hs i pc hpc
      rcases old i pc hpc with rfl | ⟨_, h⟩
      · rfl
      · exact b hs i pc h
    · rw [h2, h3]; intro hs hr
      obtain ⟨i, e, hi⟩ := c hs hr
      refine ⟨i, e, ?_⟩
      rw [h1, if_neg ?_]
      · exact hi
      · rintro rfl
        have := a _ hm _ _ (Nat.le_refl _) hi
        cases this
    · intro i j e e' hi hj
      rcases old i _ hi with h | ⟨_, h⟩
      · cases h
      · rcases old j _ hj with h' | ⟨_, h'⟩
        · cases h'
        · exact d i j e e' h h'
  | recv k e hk h1 h2 h3 h4 =>
    refine ⟨fun j hj => absurd hj (h4 j), ?_, fun _ hr => absurd hr h3, ?_⟩
    · rw [h2]; intro hs
      have := b hs k _ hk
      cases this
    · intro i j e e' hi hj
      rw [h1] at hi hj
      split at hi
      · cases hi
      · split at hj
        · cases hj
        · exact d i j e e' hi hj
  | goes k pc0 pc1 hk g1 g2 g3 g4 h1 h2 h3 h4 =>
    refine ⟨?_, ?_, ?_, ?_⟩
    · intro j hj i pc hi hpc
      rw [h4] at hj
      rw [h1] at hpc
      split at hpc
      · next e => subst e; exact absurd (a j hj _ _ hi hk) g2
      · exact a j hj i pc hi hpc
    · rw [h2]; intro hs i pc hpc
      rw [h1] at hpc
      split at hpc
      · cases hpc; exact g3
      · exact b hs i pc hpc
    · rw [h2, h3]; intro hs hr
      obtain ⟨i, e, hi⟩ := c hs hr
      refine ⟨i, e, ?_⟩
      rw [h1, if_neg ?_]
      · exact hi
      · rintro rfl
        rw [hk] at hi; cases hi; cases g1
    · intro i j e e' hi hj
      rw [h1] at hi hj
      split at hi
      · cases hi; cases g3
      · split at hj
        · cases hj; cases g3
        · exact d i j e e' hi hj
  | ends k e hk h1 h2 h3 h4 =>
    refine ⟨?_, by simp [h2], ?_, ?_⟩
    · intro j hj i pc hi hpc
      rw [h4] at hj
      rw [h1] at hpc
      split at hpc
      · next e => subst e; have := a j hj _ _ hi hk; cases this
      · exact a j hj i pc hi hpc
    · intro _ hr
      rw [h3] at hr
      by_cases hs : s.failSilently = true
      · obtain ⟨i, e', hi⟩ := c hs hr
        refine ⟨i, e', ?_⟩
        rw [h1, if_neg ?_]
        · exact hi
        · rintro rfl; rw [hk] at hi; cases hi
      · exact ⟨k, e, by rw [h1, if_pos rfl, if_neg hs]⟩
    · intro i j e1 e2 hi hj
      rw [h1] at hi hj
      by_cases hs : s.failSilently = true
      · rw [if_pos hs] at hi hj
        split at hi
        · cases hi
        · split at hj
          · cases hj
          · exact d i j _ _ hi hj
      · have hb := b (by simpa using hs)
        split at hi
        · split at hj
          · subst_vars; rfl
          · have := hb _ _ hj; cases this
        · have := hb _ _ hi; cases this

theorem failing_run {ds : List Bool} {ls : List Label} {s : State} (h : (starting ds).run ls = some s) : Failing s := by
  refine run_induct (Inv := Failing) (fun _ _ _ hp hs => failing_step hp hs) ?_ h
  have hu : ∀ (i : Nat) (pc : LoopPc), (((starting ds).servers)[i]?).map Srv.pc = some pc → pc = .unstarted := by
    intro i pc hpc
    simp only [starting, List.getElem?_map, Option.map_map] at hpc
    cases hd : ds[i]? with
    | none => rw [hd] at hpc; cases hpc
    | some x => rw [hd] at hpc; cases hpc; rfl
  refine ⟨fun _ _ i pc _ => hu i pc, fun _ i pc hpc => ?_, by simp [starting], fun i j e e' hi => ?_⟩
  · rw [hu i pc hpc]; rfl
  · have := hu i _ hi; cases this

end Indigo.App
