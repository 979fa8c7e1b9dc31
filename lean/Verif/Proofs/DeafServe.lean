/-
The serving loop on two connections on which the same comes, on one of which no write fails.
-/
import Verif.Proofs.DeafWrite
import Verif.Spec.Deaf

namespace Indigo.Serve
open Indigo.Spec Indigo.Body
variable {σ ρ : Type}

/-- The same connection, with other outcomes of the coming writes, another record of those made and of the calls of the router. -/
def Conn.as (ws : List (Option GoErr)) (wr : List Bytes) (vs : List (Visit σ)) (c : Conn σ ρ) : Conn σ ρ := { c with client := c.client.as ws wr, visits := vs }

/-- `r` is what comes of `c`, and `r0` of `c0`, which differs only in that no write fails. -/
def Sim (c c0 : Conn σ ρ) (r r0 : Conn σ ρ × Option Ended) : Prop :=
  ∃ nv nv0 fr fr0, r.1.visits = c.visits ++ nv ∧ r0.1.visits = c0.visits ++ nv0 ∧ r.1.client.written = c.client.written ++ fr ∧
    r0.1.client.written = c0.client.written ++ fr0 ∧ fr <+: fr0 ∧ answersOf nv <+: answersOf nv0 ∧
    (r.2 = none → r0.2 = none ∧ fr0 = fr ∧ answersOf nv0 = answersOf nv ∧ r0.1 = r.1.as [] r0.1.client.written r0.1.visits)

theorem answersOf_append (a b : List (Visit σ)) : answersOf (a ++ b) = answersOf a ++ answersOf b := by
  simp [answersOf]

/-- After the same in both. -/
theorem Sim.after {c c0 c1 d1 : Conn σ ρ} {r r0} {nv nv0 fr} (h1 : c1.visits = c.visits ++ nv) (h2 : d1.visits = c0.visits ++ nv0) (h3 : c1.client.written = c.client.written ++ fr)
    (h4 : d1.client.written = c0.client.written ++ fr) (h5 : answersOf nv0 = answersOf nv) (h : Sim c1 d1 r r0) : Sim c c0 r r0 := by
  obtain ⟨a, b, f, g, k1, k2, k3, k4, k5, k6, k7⟩ := h
  refine ⟨nv ++ a, nv0 ++ b, fr ++ f, fr ++ g, by rw [k1, h1, List.append_assoc], by rw [k2, h2, List.append_assoc], by rw [k3, h3, List.append_assoc],
    by rw [k4, h4, List.append_assoc], by simpa using k5, by rw [answersOf_append, answersOf_append, h5]; simpa using k6, fun hn => ?_⟩
  obtain ⟨x1, x2, x3, x4⟩ := k7 hn
  exact ⟨x1, by rw [x2], by rw [answersOf_append, answersOf_append, h5, x3], x4⟩

/-- The end of both. -/
theorem Sim.ended {c c0 : Conn σ ρ} {why why' : Ended} : Sim c c0 (c, some why) (c0, some why') :=
  ⟨[], [], [], [], by simp, by simp, by simp, by simp, List.prefix_refl _, List.prefix_refl _, nofun⟩

theorem onError_as (E : Setup σ ρ) (c : Conn σ ρ) (e : GoErr) (ws wr vs)
    (h : ((E.router.onError c.router c.req e).1.run E.P E.maxAlloc c.world).2.hijacked = false) :
    ∃ left, onError E (c.as ws wr vs) e = ((onError E c e).1,
      (onError E c e).2.as ws wr (vs ++ [.error c.req e ((E.router.onError c.router c.req e).1.run E.P E.maxAlloc c.world).1 left])) := by
  rw [onError_eq, onError_eq]
  have := run_as E.P E.maxAlloc ws wr (E.router.onError c.router c.req e).1 c.world h
  refine ⟨((E.router.onError c.router c.req e).1.run E.P E.maxAlloc c.world).2.as ws wr, ?_⟩
  rw [show (c.as ws wr vs).router = c.router from rfl, show (c.as ws wr vs).req = c.req from rfl, show (c.as ws wr vs).world = c.world.as ws wr from rfl, this]
  rfl

theorem onRequest_as (E : Setup σ ρ) (c : Conn σ ρ) (ws wr vs)
    (h : ((E.router.onRequest c.router c.req).1.run E.P E.maxAlloc c.world).2.hijacked = false) :
    ∃ world left, onRequest E (c.as ws wr vs) = ((onRequest E c).1,
      (onRequest E c).2.as ws wr (vs ++ [.request c.req world ((E.router.onRequest c.router c.req).1.run E.P E.maxAlloc c.world).1 left])) := by
  rw [onRequest_eq, onRequest_eq]
  have := run_as E.P E.maxAlloc ws wr (E.router.onRequest c.router c.req).1 c.world h
  refine ⟨((c.as ws wr vs).body, (c.as ws wr vs).client), ((E.router.onRequest c.router c.req).1.run E.P E.maxAlloc c.world).2.as ws wr, ?_⟩
  rw [show (c.as ws wr vs).router = c.router from rfl, show (c.as ws wr vs).req = c.req from rfl, show (c.as ws wr vs).world = c.world.as ws wr from rfl, this]
  rfl

theorem NotHijacked.left {a b : List (Visit σ)} (h : NotHijacked (a ++ b)) : NotHijacked a := fun v hv => h v (List.mem_append_left _ hv)
theorem NotHijacked.right {a b : List (Visit σ)} (h : NotHijacked (a ++ b)) : NotHijacked b := fun v hv => h v (List.mem_append_right _ hv)

theorem closing_sim (E : Setup σ ρ) (c : Conn σ ρ) (why : Ended) (ws wr vs) (h : NotHijacked (closing E c why).1.visits) :
    Sim c (c.as ws wr vs) (closing E c why) (closing E (c.as ws wr vs) why) := by
  obtain ⟨c1, ans, left, more, k1, k2, k3, k4, k5⟩ := closing_eq E c why
  rw [k1] at h
  dsimp only at h
  rw [k2] at h
  have hl : left.hijacked = false := NotHijacked.right h _ (List.mem_singleton.2 rfl)
  obtain ⟨c1', ans', left', more', l1, l2, l3, l4, l5⟩ := closing_eq E (c.as ws wr vs) why
  rw [k1, l1]
  exact ⟨_, _, more, more', k2, l2, k3, l3, by rw [k4 hl]; exact List.nil_prefix, by simp [answersOf], nofun⟩

theorem closing_only (E : Setup σ ρ) (c : Conn σ ρ) (why : Ended) :
    ∃ nv more, (closing E c why).1.visits = c.visits ++ nv ∧ answersOf nv = [] ∧ (closing E c why).1.client.written = c.client.written ++ more ∧
      ((NotHijacked (closing E c why).1.visits) → more = []) := by
  obtain ⟨c1, ans, left, more, k1, k2, k3, k4, k5⟩ := closing_eq E c why
  rw [k1]
  refine ⟨_, more, k2, rfl, k3, fun h => ?_⟩
  dsimp only at h
  rw [k2] at h
  exact k4 (NotHijacked.right h _ (List.mem_singleton.2 rfl))

theorem clearing_only (E : Setup σ ρ) (c : Conn σ ρ) :
    ∃ nv more, (clearing E c).1.visits = c.visits ++ nv ∧ answersOf nv = [] ∧ (clearing E c).1.client.written = c.client.written ++ more := by
  unfold clearing
  have d1 : (Body.discard E.P (Body.fuel (c.body, c.client)) (c.body, c.client)).2.2.written = c.client.written :=
    discard_inv E.P (fun t => t.2.written = c.client.written) (fun t ht => (retrieve_out E.P t).1.trans ht) _ _ rfl
  rcases hd : Body.discard E.P (Body.fuel (c.body, c.client)) (c.body, c.client) with ⟨x, b, cl⟩
  rw [hd] at d1
  cases x with
  | none => exact ⟨[], [], by simp, rfl, by simpa using d1⟩
  | some x =>
    obtain ⟨nv, more, h1, h2, h3, -⟩ := closing_only E { c with body := b, client := cl } .clearFailed
    exact ⟨nv, more, h1, h2, by rw [← d1]; exact h3⟩

theorem clearing_sim (E : Setup σ ρ) (c : Conn σ ρ) (wr vs) (h : NotHijacked (clearing E c).1.visits) :
    Sim c (c.as [] wr vs) (clearing E c) (clearing E (c.as [] wr vs)) := by
  have d1 : (Body.discard E.P (Body.fuel (c.body, c.client)) (c.body, c.client)).2.2.written = c.client.written :=
    discard_inv E.P (fun t => t.2.written = c.client.written) (fun t ht => (retrieve_out E.P t).1.trans ht) _ _ rfl
  have d2 := discard_as E.P [] wr (Body.fuel (c.body, c.client)) (c.body, c.client)
  unfold clearing at h ⊢
  rw [show ((c.as [] wr vs).body, (c.as [] wr vs).client) = on [] wr (c.body, c.client) from rfl, show fuel (on [] wr (c.body, c.client)) = fuel (c.body, c.client) from rfl, d2]
  rcases hd : Body.discard E.P (Body.fuel (c.body, c.client)) (c.body, c.client) with ⟨x, b, cl⟩
  rw [hd] at d1 h
  cases x with
  | none => exact ⟨[], [], [], [], by simp, by simp [Conn.as], by simpa using d1, by simp [on, Conn.as], List.prefix_refl _, List.prefix_refl _, fun _ => ⟨rfl, rfl, rfl, rfl⟩⟩
  | some x =>
    dsimp only at h d1 ⊢
    have := closing_sim E { c with body := b, client := cl } .clearFailed [] wr vs h
    refine Sim.after (c1 := { c with body := b, client := cl }) (d1 := ({ c with body := b, client := cl } : Conn σ ρ).as [] wr vs) (nv := []) (nv0 := []) (fr := []) (by simp) (by simp [Conn.as]) (by simpa using d1) (by simp [Conn.as]) rfl this

theorem respond_sim (E : Setup σ ρ) (v : Proto) (c : Conn σ ρ) (f : Fields) (wr vs) (hh : c.req.wasHijacked = false) (h : NotHijacked (respond E v c f).1.visits) :
    Sim c (c.as [] wr vs) (respond E v c f) (respond E v (c.as [] wr vs) f) := by
  have hx := Serializer.write_eq_onto E.F c.ser v c.req f c.client
  have hy := Serializer.write_eq_onto E.F c.ser v c.req f (c.client.as [] wr)
  have hb := Serializer.write_better E.F c.ser v c.req f c.client.wscript
  unfold respond at h ⊢
  rw [show (c.as [] wr vs).req = c.req from rfl, show (c.as [] wr vs).ser = c.ser from rfl, show (c.as [] wr vs).client = c.client.as [] wr from rfl, hh, hy, hx]
  rw [hh, hx] at h
  rw [Client.as_wscript]
  rw [show ({} : Client) = { wscript := [] } from rfl] at hb
  generalize Serializer.write E.F c.ser v c.req f { wscript := c.client.wscript } = X at hb h ⊢
  generalize hY : Serializer.write E.F c.ser v c.req f { wscript := [] } = Y at hb ⊢
  have hYs : Y.client.wscript = [] := by
    obtain ⟨fr, -, h2, -⟩ := Serializer.write_careful E.F c.ser v c.req f { wscript := [] }
    rw [hY] at h2
    simpa using h2
  simp only [Bool.false_eq_true, if_false] at h ⊢
  obtain ⟨hb1, hb2⟩ := hb
  have rest : ∀ (cc : Conn σ ρ) (e : GoErr), cc.visits = c.visits → cc.client.written = c.client.written ++ X.client.written → NotHijacked (closing E cc .writeFailed).1.visits →
      Sim c (c.as [] wr vs) (closing E cc .writeFailed)
        (match Y.out with
        | .panic => ({ c.as [] wr vs with ser := Y.ser, client := Serializer.onto (c.client.as [] wr) Y.client }, some .panicked)
        | .done (some _) => closing E { c.as [] wr vs with ser := Y.ser, client := Serializer.onto (c.client.as [] wr) Y.client } .writeFailed
        | .done none => clearing E { c.as [] wr vs with ser := Y.ser, client := Serializer.onto (c.client.as [] wr) Y.client }) := by
    intro cc e h1 h2 h3
    obtain ⟨nv, more, a1, a2, a3, a4⟩ := closing_only E cc .writeFailed
    have hmore := a4 h3
    subst hmore
    obtain ⟨w, hw⟩ := closing_some E cc .writeFailed
    have fin : ∀ r0 : Conn σ ρ × Option Ended, (∃ nv0 more0, r0.1.visits = vs ++ nv0 ∧ r0.1.client.written = wr ++ Y.client.written ++ more0 ∧ answersOf nv0 = []) →
        Sim c (c.as [] wr vs) (closing E cc .writeFailed) r0 := by
      rintro r0 ⟨nv0, more0, b1, b2, b3⟩
      refine ⟨nv, nv0, X.client.written, Y.client.written ++ more0, by rw [a1, h1], b1, by rw [a3, h2]; simp, by rw [b2, List.append_assoc]; rfl,
        hb1.trans (List.prefix_append _ _), by rw [a2]; exact List.nil_prefix, fun hn => by rw [hw] at hn; cases hn⟩
    apply fin
    cases Y.out with
    | panic => exact ⟨[], [], by simp [Conn.as], by simp [Serializer.onto], rfl⟩
    | done e =>
      cases e with
      | some e =>
        obtain ⟨nv0, more0, b1, b2, b3, -⟩ := closing_only E { c.as [] wr vs with ser := Y.ser, client := Serializer.onto (c.client.as [] wr) Y.client } .writeFailed
        exact ⟨nv0, more0, b1, b3, b2⟩
      | none =>
        obtain ⟨nv0, more0, b1, b2, b3⟩ := clearing_only E { c.as [] wr vs with ser := Y.ser, client := Serializer.onto (c.client.as [] wr) Y.client }
        exact ⟨nv0, more0, b1, b3, b2⟩
  cases hX : X.out with
  | panic =>
    rw [hX] at hb2
    obtain ⟨b1, b2, b3⟩ := hb2 nofun
    rw [b1]
    exact ⟨[], [], X.client.written, Y.client.written, by simp, by simp, rfl, rfl, hb1, List.prefix_refl _, nofun⟩
  | done e =>
    cases e with
    | some e =>
      rw [hX] at h
      exact rest _ e rfl rfl h
    | none =>
      rw [hX] at hb2 h
      obtain ⟨b1, b2, b3⟩ := hb2 nofun
      rw [b1]
      dsimp only at h ⊢
      have := clearing_sim E { c with ser := X.ser, client := Serializer.onto c.client X.client } (wr ++ X.client.written) vs h
      refine Sim.after (c1 := { c with ser := X.ser, client := Serializer.onto c.client X.client })
        (d1 := ({ c with ser := X.ser, client := Serializer.onto c.client X.client } : Conn σ ρ).as [] (wr ++ X.client.written) vs) (nv := []) (nv0 := []) (fr := X.client.written)
        (by simp) (by simp [Conn.as]) rfl rfl rfl ?_
      have e : ({ c.as [] wr vs with ser := Y.ser, client := Serializer.onto (c.client.as [] wr) Y.client } : Conn σ ρ) =
          ({ c with ser := X.ser, client := Serializer.onto c.client X.client } : Conn σ ρ).as [] (wr ++ X.client.written) vs := by
        simp only [Conn.as, Client.as, Serializer.onto, b2, b3, hYs]
      rw [e]
      exact this

/-- Calls and writes are added. -/
def Grows (c c' : Conn σ ρ) : Prop := c.visits <+: c'.visits ∧ c.client.written <+: c'.client.written ∧ answersOf c.visits <+: answersOf c'.visits

theorem Grows.of {c c' : Conn σ ρ} {nv fr} (h1 : c'.visits = c.visits ++ nv) (h2 : c'.client.written = c.client.written ++ fr) : Grows c c' :=
  ⟨by rw [h1]; exact List.prefix_append _ _, by rw [h2]; exact List.prefix_append _ _, by rw [h1, answersOf_append]; exact List.prefix_append _ _⟩

theorem Grows.trans {a b c : Conn σ ρ} (h1 : Grows a b) (h2 : Grows b c) : Grows a c := ⟨h1.1.trans h2.1, h1.2.1.trans h2.2.1, h1.2.2.trans h2.2.2⟩

theorem respond_grows (E : Setup σ ρ) (v : Proto) (c : Conn σ ρ) (f : Fields) : Grows c (respond E v c f).1 := by
  unfold respond
  split
  · exact .of (nv := []) (fr := []) (by simp) (by simp)
  · dsimp only
    rw [Serializer.write_eq_onto]
    generalize Serializer.write E.F c.ser v c.req f { wscript := c.client.wscript } = X
    have h0 : Grows c { c with ser := X.ser, client := Serializer.onto c.client X.client } := .of (nv := []) (fr := X.client.written) (by simp) rfl
    dsimp only
    cases X.out with
    | panic => exact h0
    | done e =>
      cases e with
      | some e =>
        obtain ⟨nv, more, a1, -, a3, -⟩ := closing_only E { c with ser := X.ser, client := Serializer.onto c.client X.client } .writeFailed
        exact h0.trans (.of a1 a3)
      | none =>
        obtain ⟨nv, more, a1, -, a3⟩ := clearing_only E { c with ser := X.ser, client := Serializer.onto c.client X.client }
        exact h0.trans (.of a1 a3)

theorem onRequest_grows (E : Setup σ ρ) (c : Conn σ ρ) : Grows c (onRequest E c).2 := by
  rw [onRequest_eq]
  obtain ⟨more, hm⟩ := run_prefix E.P E.maxAlloc (E.router.onRequest c.router c.req).1 c.world
  exact .of rfl hm.symm

theorem onError_grows (E : Setup σ ρ) (c : Conn σ ρ) (e : GoErr) : Grows c (onError E c e).2 := by
  rw [onError_eq]
  obtain ⟨more, hm⟩ := run_prefix E.P E.maxAlloc (E.router.onError c.router c.req e).1 c.world
  exact .of rfl hm.symm

theorem iteration_grows (E : Setup σ ρ) (c : Conn σ ρ) : Grows c (step E c).1 := by
  unfold step
  obtain ⟨r1, r2⟩ := read_keeps c.client
  rcases hr : c.client.read with ⟨⟨data, err⟩, cl⟩
  rw [hr] at r1 r2
  dsimp only at r1 r2
  have h0 : ∀ (p : Parser.PState) (s : Serializer) (u : Fields) (x : Bytes) (b : Body σ), Grows c { c with parser := p, client := cl.unread x, ser := s, upgradePreResp := u, body := b } :=
    fun _ _ _ _ _ => .of (nv := []) (fr := []) (by simp) (by simpa [Client.unread] using r1)
  have h1 : ∀ (p : Parser.PState), Grows c { c with parser := p, client := cl } := fun _ => .of (nv := []) (fr := []) (by simp) (by simpa using r1)
  cases err with
  | some x =>
    obtain ⟨nv, more, a1, -, a3, -⟩ := closing_only E { c with client := cl } .readFailed
    exact (h1 c.parser).trans (.of a1 a3)
  | none =>
    dsimp only
    rcases Parser.parse E.F c.parser data with ⟨p', res⟩
    cases res with
    | pending => exact h1 p'
    | panic => exact h1 p'
    | error e =>
      dsimp only
      unfold rejecting
      have hg := onError_grows E { c with parser := p', client := cl } (.http e)
      rcases ho : onError E { c with parser := p', client := cl } (.http e) with ⟨o, c1⟩
      rw [ho] at hg
      dsimp only at hg
      cases o with
      | none => exact (h1 p').trans hg
      | some f =>
        refine ((h1 p').trans hg).trans ?_
        dsimp only
        rw [Serializer.write_eq_onto]
        exact .of (nv := []) (by simp) rfl
    | completed extra =>
      dsimp only
      unfold headersCompleted preResponse
      have tail : ∀ (version : Proto) (c1 : Conn σ ρ), Grows c c1 →
          Grows c (match onRequest E c1 with
            | (none, c) => (c, some .panicked)
            | (some resp, c) => respond E version c resp : Conn σ ρ × Option Ended).1 := by
        intro version c1 hc1
        have hg := onRequest_grows E c1
        rcases ho : onRequest E c1 with ⟨o, c2⟩
        rw [ho] at hg
        dsimp only at hg
        cases o with
        | none => exact hc1.trans hg
        | some f => exact (hc1.trans hg).trans (respond_grows _ _ _ _)
      split
      exact tail _ _ (by
        rename_i hpre
        split at hpre <;> (cases hpre; exact h0 _ _ _ _ _))

theorem serve_grows (E : Setup σ ρ) : ∀ (n : Nat) (c : Conn σ ρ), Grows c (serveLoop E n c).1 := by
  intro n
  induction n with
  | zero => intro c; exact .of (nv := []) (fr := []) (by simp [serveLoop]) (by simp [serveLoop])
  | succ n ih =>
    intro c
    unfold serveLoop
    have := iteration_grows E c
    rcases hs : step E c with ⟨c1, o⟩
    rw [hs] at this
    cases o with
    | some why => exact this
    | none => exact this.trans (ih c1)

theorem preResponse_as (E : Setup σ ρ) (c : Conn σ ρ) (ws wr vs) :
    preResponse E (c.as ws wr vs) = ((preResponse E c).1, (preResponse E c).2.as ws wr vs) := by
  unfold preResponse
  rw [show (c.as ws wr vs).req = c.req from rfl]
  split <;> rfl

theorem step_sim (E : Setup σ ρ) (c : Conn σ ρ) (wr vs) (h : NotHijacked (step E c).1.visits) : Sim c (c.as [] wr vs) (step E c) (step E (c.as [] wr vs)) := by
  obtain ⟨r1, r2⟩ := read_keeps c.client
  unfold step at h ⊢
  rw [show (c.as [] wr vs).client = c.client.as [] wr from rfl, Client.as_read]
  rcases hr : c.client.read with ⟨⟨data, err⟩, cl⟩
  rw [hr] at r1 r2 h
  dsimp only at r1 r2 h ⊢
  have start : ∀ (c1 : Conn σ ρ) (r r0 : Conn σ ρ × Option Ended), c1.visits = c.visits → c1.client.written = c.client.written → Sim c1 (c1.as [] wr vs) r r0 → Sim c (c.as [] wr vs) r r0 :=
    fun c1 r r0 h1 h2 hs => Sim.after (nv := []) (nv0 := []) (fr := []) (by simp [h1]) (by simp [Conn.as]) (by simp [h2]) (by simp [Conn.as]) rfl hs
  cases err with
  | some x => exact start { c with client := cl } _ _ rfl r1 (closing_sim E { c with client := cl } .readFailed [] wr vs h)
  | none =>
    dsimp only at h ⊢
    rw [show (c.as [] wr vs).parser = c.parser from rfl]
    rcases hp : Parser.parse E.F c.parser data with ⟨p', res⟩
    rw [hp] at h
    cases res with
    | pending => exact ⟨[], [], [], [], by simp, by simp [Conn.as], by simpa using r1, by simp [Conn.as], List.prefix_refl _, List.prefix_refl _, fun _ => ⟨rfl, rfl, rfl, rfl⟩⟩
    | panic => exact ⟨[], [], [], [], by simp, by simp [Conn.as], by simpa using r1, by simp [Conn.as], List.prefix_refl _, List.prefix_refl _, nofun⟩
    | error e =>
      dsimp only at h ⊢
      refine start { c with parser := p', client := cl } _ _ rfl r1 ?_
      generalize hc1 : ({ c with parser := p', client := cl } : Conn σ ρ) = c1 at h
      rw [show ({ c.as [] wr vs with parser := p', client := cl.as [] wr } : Conn σ ρ) = c1.as [] wr vs from by rw [← hc1]; rfl]
      unfold rejecting at h ⊢
      have hg := onError_grows E c1 (.http e)
      have hq : NotHijacked (onError E c1 (.http e)).2.visits := by
        revert h
        rcases onError E c1 (.http e) with ⟨o, c2⟩
        cases o <;> exact id
      have hrun : ((E.router.onError c1.router c1.req (.http e)).1.run E.P E.maxAlloc c1.world).2.hijacked = false := by
        rw [onError_eq] at hq
        exact NotHijacked.right hq _ (List.mem_singleton.2 rfl)
      obtain ⟨left, has⟩ := onError_as E c1 (.http e) [] wr vs hrun
      have hout := (run_out E.P E.maxAlloc (E.router.onError c1.router c1.req (.http e)).1 c1.world hrun).1
      have hv : (onError E c1 (.http e)).2.client.written = c1.client.written := by rw [onError_eq]; exact hout
      have hvis : ∃ v, (onError E c1 (.http e)).2.visits = c1.visits ++ [v] ∧ answersOf [v] = [] := by rw [onError_eq]; exact ⟨_, rfl, rfl⟩
      rw [has]
      obtain ⟨v, hvis, hv0⟩ := hvis
      rcases hone : onError E c1 (.http e) with ⟨o, c2⟩
      rw [hone] at hv hvis
      dsimp only at hv hvis
      cases o with
      | none =>
        refine ⟨[v], _, [], [], hvis, rfl, by simp [hv], by simp [Conn.as], List.prefix_refl _, by rw [hv0]; exact List.nil_prefix, nofun⟩
      | some f =>
        dsimp only
        have hx := Serializer.write_eq_onto E.F c2.ser c2.req.Proto c2.req f c2.client
        have hy := Serializer.write_eq_onto E.F c2.ser c2.req.Proto c2.req f (c2.client.as [] wr)
        have hb := Serializer.write_better E.F c2.ser c2.req.Proto c2.req f c2.client.wscript
        refine ⟨[v], _, _, _, hvis, rfl, ?_, ?_, hb.1, by rw [hv0]; exact List.nil_prefix, nofun⟩
        · dsimp only
          rw [hx]
          simp only [Serializer.onto, hv]
        · dsimp only [Conn.as]
          rw [show (({ c2 with client := c2.client.as [] wr, visits := vs ++ [Visit.error c1.req (GoErr.http e) ((E.router.onError c1.router c1.req (.http e)).1.run E.P E.maxAlloc c1.world).1 left] } : Conn σ ρ)).req = c2.req from rfl]
          rw [hy]
          rfl
    | completed extra =>
      dsimp only at h ⊢
      refine start { c with parser := p', client := cl } _ _ rfl r1 ?_
      generalize hc1 : ({ c with parser := p', client := cl } : Conn σ ρ) = c1 at h
      rw [show ({ c.as [] wr vs with parser := p', client := cl.as [] wr } : Conn σ ρ) = c1.as [] wr vs from by rw [← hc1]; rfl]
      unfold headersCompleted at h ⊢
      rw [preResponse_as]
      have hpv : (preResponse E c1).2.visits = c1.visits ∧ (preResponse E c1).2.client = c1.client := by
        unfold preResponse; split <;> exact ⟨rfl, rfl⟩
      rcases hpre : preResponse E c1 with ⟨version, c2⟩
      rw [hpre] at h hpv
      dsimp only at h hpv ⊢
      obtain ⟨hpv1, hpv2⟩ := hpv
      generalize hc3 : ({ c2 with client := c2.client.unread extra, body := c2.body.initFor c2.req } : Conn σ ρ) = c3 at h
      rw [show ({ c2.as [] wr vs with client := (c2.as [] wr vs).client.unread extra, body := (c2.as [] wr vs).body.initFor (c2.as [] wr vs).req } : Conn σ ρ) = c3.as [] wr vs from by rw [← hc3]; rfl]
      have h3v : c3.visits = c1.visits := by rw [← hc3]; exact hpv1
      have h3w : c3.client.written = c1.client.written := by rw [← hc3]; show c2.client.written = _; rw [hpv2]
      have hq : NotHijacked (onRequest E c3).2.visits := by
        have hg := fun f => respond_grows E version (onRequest E c3).2 f
        revert h hg
        rcases onRequest E c3 with ⟨o, c4⟩
        intro h hg
        cases o with
        | none => exact h
        | some f =>
          obtain ⟨⟨x, hx⟩, -⟩ := hg f
          dsimp only at h hx
          rw [← hx] at h
          exact NotHijacked.left h
      have hrun : ((E.router.onRequest c3.router c3.req).1.run E.P E.maxAlloc c3.world).2.hijacked = false := by
        rw [onRequest_eq] at hq
        exact NotHijacked.right hq _ (List.mem_singleton.2 rfl)
      obtain ⟨world, left, has⟩ := onRequest_as E c3 [] wr vs hrun
      have hout := (run_out E.P E.maxAlloc (E.router.onRequest c3.router c3.req).1 c3.world hrun).1
      have hv : (onRequest E c3).2.client.written = c3.client.written := by rw [onRequest_eq]; exact hout
      have hvis : ∃ v, (onRequest E c3).2.visits = c3.visits ++ [v] ∧ answersOf [v] = [(c3.req, ((E.router.onRequest c3.router c3.req).1.run E.P E.maxAlloc c3.world).1)] := by
        rw [onRequest_eq]; exact ⟨_, rfl, rfl⟩
      have hhij : (onRequest E c3).2.req.wasHijacked = false := by rw [onRequest_eq]; exact hrun
      rw [has]
      obtain ⟨v, hvis, hv0⟩ := hvis
      rcases hone : onRequest E c3 with ⟨o, c4⟩
      rw [hone] at hv hvis hhij h
      dsimp only at hv hvis hhij h ⊢
      refine Sim.after (c1 := c4) (d1 := c4.as [] wr (vs ++ [.request c3.req world ((E.router.onRequest c3.router c3.req).1.run E.P E.maxAlloc c3.world).1 left])) (nv := [v])
        (nv0 := [.request c3.req world ((E.router.onRequest c3.router c3.req).1.run E.P E.maxAlloc c3.world).1 left]) (fr := [])
        (by rw [hvis, h3v]) rfl (by simp [hv, h3w]) (by simp [Conn.as]) (by rw [hv0]; rfl) ?_
      cases o with
      | none => exact .ended
      | some f => exact respond_sim E version c4 f _ _ hhij h

/-- With writes which fail, what is written, and what the router is called with and answers, is the beginning of what it is without. -/
theorem loop_sim (E : Setup σ ρ) : ∀ (n : Nat) (c : Conn σ ρ) (wr vs), NotHijacked (serveLoop E n c).1.visits →
    ∃ nv nv0 fr fr0, (serveLoop E n c).1.visits = c.visits ++ nv ∧ (serveLoop E n (c.as [] wr vs)).1.visits = vs ++ nv0 ∧ (serveLoop E n c).1.client.written = c.client.written ++ fr ∧
      (serveLoop E n (c.as [] wr vs)).1.client.written = wr ++ fr0 ∧ fr <+: fr0 ∧ answersOf nv <+: answersOf nv0 := by
  intro n
  induction n with
  | zero => intro c wr vs _; exact ⟨[], [], [], [], by simp [serveLoop], by simp [serveLoop, Conn.as], by simp [serveLoop], by simp [serveLoop, Conn.as], List.prefix_refl _, List.prefix_refl _⟩
  | succ n ih =>
    intro c wr vs h
    have hs := step_sim E c wr vs
    unfold serveLoop at h ⊢
    rcases hst : step E c with ⟨c1, o⟩
    rw [hst] at hs h
    rcases hst0 : step E (c.as [] wr vs) with ⟨d1, o0⟩
    rw [hst0] at hs
    cases o with
    | some why =>
      dsimp only at h ⊢
      obtain ⟨nv, nv0, fr, fr0, k1, k2, k3, k4, k5, k6, -⟩ := hs h
      cases o0 with
      | some why0 => exact ⟨nv, nv0, fr, fr0, k1, k2, k3, k4, k5, k6⟩
      | none =>
        dsimp only at k2 k4 ⊢
        obtain ⟨⟨nv1, g1⟩, ⟨fr1, g2⟩, -⟩ := serve_grows E n d1
        refine ⟨nv, nv0 ++ nv1, fr, fr0 ++ fr1, k1, ?_, k3, ?_, k5.trans (List.prefix_append _ _), ?_⟩
        · rw [← g1, k2, List.append_assoc]; rfl
        · rw [← g2, k4, List.append_assoc]; rfl
        · rw [answersOf_append]; exact k6.trans (List.prefix_append _ _)
    | none =>
      dsimp only at h
      have h1 : NotHijacked c1.visits := by
        obtain ⟨⟨x, hx⟩, -⟩ := serve_grows E n c1
        rw [← hx] at h
        exact NotHijacked.left h
      obtain ⟨nv, nv0, fr, fr0, k1, k2, k3, k4, k5, k6, k7⟩ := hs h1
      obtain ⟨l1, l2, l3, l4⟩ := k7 rfl
      dsimp only at l1 l4 k1 k2 k3 k4
      subst l1 l2
      obtain ⟨nv', nv0', fr', fr0', m1, m2, m3, m4, m5, m6⟩ := ih c1 d1.client.written d1.visits h
      rw [← l4] at m2 m4
      refine ⟨nv ++ nv', nv0 ++ nv0', fr0 ++ fr', fr0 ++ fr0', ?_, ?_, ?_, ?_, by simpa using m5, ?_⟩
      · dsimp only; rw [m1, k1, List.append_assoc]
      · dsimp only; rw [m2, k2, List.append_assoc]; rfl
      · dsimp only; rw [m3, k3, List.append_assoc]
      · dsimp only; rw [m4, k4, List.append_assoc]; rfl
      · rw [answersOf_append, answersOf_append, l3]; simpa using m6

end Indigo.Serve
