/-
Connections do not depend on the parts of the router other connections change.
-/
import Verif.Model.Concurrent

namespace Indigo.Serve
variable {σ ρ ρ' : Type} {E : Setup σ ρ} {r' : RouterImpl Act ρ'} {R : ρ' → ρ → Prop} {Quiet : Visit σ → Prop}

/-- The same connection with two states of the router. -/
structure Like (R : ρ' → ρ → Prop) (a : Conn σ ρ') (b : Conn σ ρ) : Prop where
  rel : R a.router b.router
  same : a = b.on a.router

theorem Like.mk' {c : Conn σ ρ} {x : ρ'} {y : ρ} (h : R x y) : Like R (c.on x) (c.on y) := ⟨h, rfl⟩

theorem Like.elim {a : Conn σ ρ'} {b : Conn σ ρ} (h : Like R a b) : ∃ (c : Conn σ ρ) (x : ρ') (y : ρ), a = Conn.on c x ∧ b = Conn.on c y ∧ R x y :=
  ⟨b, a.router, b.router, h.same, rfl, h.rel⟩

/-- The router answers the same in related states, for what is `Quiet`. -/
structure Agrees (E : Setup σ ρ) (r' : RouterImpl Act ρ') (R : ρ' → ρ → Prop) (Quiet : Visit σ → Prop) : Prop where
  request : ∀ x y req, R x y → (∃ w a l, Quiet (.request req w a l)) →
    (r'.onRequest x req).1 = (E.router.onRequest y req).1
  error : ∀ x y req e, R x y → (∃ a l, Quiet (.error req e a l)) →
    (r'.onError x req e).1 = (E.router.onError y req e).1
  request_after : ∀ x y req, R x y → (∃ w a l, Quiet (.request req w a l)) → R (r'.onRequest x req).2 (E.router.onRequest y req).2
  error_after : ∀ x y req e, R x y → (∃ a l, Quiet (.error req e a l)) → R (r'.onError x req e).2 (E.router.onError y req e).2

private theorem onError_like (ag : Agrees E r' R Quiet) {a : Conn σ ρ'} {b : Conn σ ρ} (h : Like R a b) (e : GoErr)
    (hq : ∀ v ∈ (onError E b e).2.visits, Quiet v) :
    (onError (E.through r') a e).1 = (onError E b e).1 ∧ Like R (onError (E.through r') a e).2 (onError E b e).2 := by
  obtain ⟨c, x, y, rfl, rfl, hr⟩ := h.elim
  have hex : ∃ a l, Quiet (.error c.req e a l) := by
    unfold onError at hq
    dsimp only at hq
    split at hq
    · exact ⟨_, _, hq _ (List.mem_append.2 (.inr (List.mem_singleton.2 rfl)))⟩
    · exact ⟨_, _, hq _ (List.mem_append.2 (.inr (List.mem_singleton.2 rfl)))⟩
  have h1 := ag.error x y c.req e hr hex
  have h2 := ag.error_after x y c.req e hr hex
  unfold onError
  have ex : (E.through r').router.onError (c.on x).router (c.on x).req e = r'.onError x c.req e := rfl
  have ey : E.router.onError (c.on y).router (c.on y).req e = E.router.onError y c.req e := rfl
  rw [ex, ey]
  generalize r'.onError x c.req e = p at h1 h2 ⊢
  generalize E.router.onError y c.req e = q at h1 h2 ⊢
  obtain ⟨pa, pr⟩ := p
  obtain ⟨qa, qr⟩ := q
  dsimp only at h1 h2 ⊢
  subst h1
  have ew : pa.run (E.through r').P (E.through r').maxAlloc (c.on x).world = pa.run E.P E.maxAlloc (c.on y).world := rfl
  rw [ew]
  split
  · exact ⟨rfl, ⟨h2, rfl⟩⟩
  · exact ⟨rfl, ⟨h2, rfl⟩⟩

private theorem onRequest_like (ag : Agrees E r' R Quiet) {a : Conn σ ρ'} {b : Conn σ ρ} (h : Like R a b)
    (hq : ∀ v ∈ (onRequest E b).2.visits, Quiet v) :
    (onRequest (E.through r') a).1 = (onRequest E b).1 ∧ Like R (onRequest (E.through r') a).2 (onRequest E b).2 := by
  obtain ⟨c, x, y, rfl, rfl, hr⟩ := h.elim
  have hex : ∃ w a l, Quiet (.request c.req w a l) := by
    unfold onRequest at hq
    dsimp only at hq
    split at hq
    · exact ⟨_, _, _, hq _ (List.mem_append.2 (.inr (List.mem_singleton.2 rfl)))⟩
    · exact ⟨_, _, _, hq _ (List.mem_append.2 (.inr (List.mem_singleton.2 rfl)))⟩
  have h1 := ag.request x y c.req hr hex
  have h2 := ag.request_after x y c.req hr hex
  unfold onRequest
  have ex : (E.through r').router.onRequest (c.on x).router (c.on x).req = r'.onRequest x c.req := rfl
  have ey : E.router.onRequest (c.on y).router (c.on y).req = E.router.onRequest y c.req := rfl
  rw [ex, ey]
  generalize r'.onRequest x c.req = p at h1 h2 ⊢
  generalize E.router.onRequest y c.req = q at h1 h2 ⊢
  obtain ⟨pa, pr⟩ := p
  obtain ⟨qa, qr⟩ := q
  dsimp only at h1 h2 ⊢
  subst h1
  have ew : pa.run (E.through r').P (E.through r').maxAlloc (c.on x).world = pa.run E.P E.maxAlloc (c.on y).world := rfl
  rw [ew]
  split
  · exact ⟨rfl, ⟨h2, rfl⟩⟩
  · exact ⟨rfl, ⟨h2, rfl⟩⟩

/-! Visits are only added. -/

private theorem closing_visits (c : Conn σ ρ) (why : Ended) : (closing E c why).1.visits = (onError E c (.http Status.ErrCloseConnection)).2.visits := by
  unfold closing
  split <;> (rename_i h; rw [h])

private theorem onError_grows (c : Conn σ ρ) (e : GoErr) : ∀ v ∈ c.visits, v ∈ (onError E c e).2.visits := by
  intro v hv
  unfold onError
  dsimp only
  split <;> exact List.mem_append.2 (.inl hv)

private theorem onRequest_grows (c : Conn σ ρ) : ∀ v ∈ c.visits, v ∈ (onRequest E c).2.visits := by
  intro v hv
  unfold onRequest
  dsimp only
  split <;> exact List.mem_append.2 (.inl hv)

private theorem closing_grows (c : Conn σ ρ) (why : Ended) : ∀ v ∈ c.visits, v ∈ (closing E c why).1.visits := by
  rw [closing_visits]; exact onError_grows c _

private theorem clearing_grows (c : Conn σ ρ) : ∀ v ∈ c.visits, v ∈ (clearing E c).1.visits := by
  intro v hv
  unfold clearing
  split
  · exact closing_grows (E := E) { c with body := _, client := _ } _ v hv
  · exact hv

private theorem respond_grows (c : Conn σ ρ) (p : Proto) (resp : Fields) : ∀ v ∈ c.visits, v ∈ (respond E p c resp).1.visits := by
  intro v hv
  unfold respond
  split
  · exact hv
  · dsimp only
    split
    · exact hv
    · exact closing_grows (E := E) { c with ser := _, client := _ } _ v hv
    · exact clearing_grows (E := E) { c with ser := _, client := _ } v hv

private theorem closing_like (ag : Agrees E r' R Quiet) {a : Conn σ ρ'} {b : Conn σ ρ} (h : Like R a b) (why : Ended)
    (hq : ∀ v ∈ (closing E b why).1.visits, Quiet v) :
    (closing (E.through r') a why).2 = (closing E b why).2 ∧ Like R (closing (E.through r') a why).1 (closing E b why).1 := by
  rw [closing_visits] at hq
  obtain ⟨h1, h2⟩ := onError_like ag h (.http Status.ErrCloseConnection) hq
  unfold closing
  generalize onError (E.through r') a (.http Status.ErrCloseConnection) = p at h1 h2 ⊢
  generalize onError E b (.http Status.ErrCloseConnection) = q at h1 h2 ⊢
  obtain ⟨p1, p2⟩ := p
  obtain ⟨q1, q2⟩ := q
  dsimp only at h1 h2
  subst h1
  cases p1 <;> exact ⟨rfl, h2⟩

private theorem clearing_like (ag : Agrees E r' R Quiet) {a : Conn σ ρ'} {b : Conn σ ρ} (h : Like R a b)
    (hq : ∀ v ∈ (clearing E b).1.visits, Quiet v) :
    (clearing (E.through r') a).2 = (clearing E b).2 ∧ Like R (clearing (E.through r') a).1 (clearing E b).1 := by
  obtain ⟨c, x, y, rfl, rfl, hr⟩ := h.elim
  unfold clearing at hq ⊢
  have ex : Body.discard (E.through r').P (Body.fuel ((c.on x).body, (c.on x).client)) ((c.on x).body, (c.on x).client) =
    Body.discard E.P (Body.fuel (c.body, c.client)) (c.body, c.client) := rfl
  have ey : Body.discard E.P (Body.fuel ((c.on y).body, (c.on y).client)) ((c.on y).body, (c.on y).client) =
    Body.discard E.P (Body.fuel (c.body, c.client)) (c.body, c.client) := rfl
  rw [ey] at hq
  rw [ex, ey]
  generalize Body.discard E.P (Body.fuel (c.body, c.client)) (c.body, c.client) = d at hq ⊢
  obtain ⟨o, body, client⟩ := d
  cases o with
  | none => exact ⟨rfl, ⟨hr, rfl⟩⟩
  | some e => exact closing_like ag ⟨hr, rfl⟩ _ hq

private theorem respond_like (ag : Agrees E r' R Quiet) {a : Conn σ ρ'} {b : Conn σ ρ} (h : Like R a b) (p : Proto) (resp : Fields)
    (hq : ∀ v ∈ (respond E p b resp).1.visits, Quiet v) :
    (respond (E.through r') p a resp).2 = (respond E p b resp).2 ∧ Like R (respond (E.through r') p a resp).1 (respond E p b resp).1 := by
  obtain ⟨c, x, y, rfl, rfl, hr⟩ := h.elim
  unfold respond at hq ⊢
  have ex : (c.on x).req = c.req := rfl
  have ey : (c.on y).req = c.req := rfl
  rw [ey] at hq
  rw [ex, ey]
  by_cases hh : c.req.wasHijacked = true
  · rw [if_pos hh, if_pos hh]; exact ⟨rfl, ⟨hr, rfl⟩⟩
  · rw [if_neg hh, if_neg hh]
    rw [if_neg hh] at hq
    dsimp only at hq ⊢
    have sx : (c.on x).ser.write (E.through r').F p c.req resp (c.on x).client = c.ser.write E.F p c.req resp c.client := rfl
    have sy : (c.on y).ser.write E.F p c.req resp (c.on y).client = c.ser.write E.F p c.req resp c.client := rfl
    rw [sy] at hq
    rw [sx, sy]
    generalize c.ser.write E.F p c.req resp c.client = w at hq ⊢
    cases hw : w.out with
    | panic => exact ⟨rfl, ⟨hr, rfl⟩⟩
    | done o =>
      rw [hw] at hq
      cases o with
      | none => exact clearing_like ag ⟨hr, rfl⟩ hq
      | some e => exact closing_like ag ⟨hr, rfl⟩ _ hq

/-- One iteration. -/
theorem step_like (ag : Agrees E r' R Quiet) {a : Conn σ ρ'} {b : Conn σ ρ} (h : Like R a b)
    (hq : ∀ v ∈ (step E b).1.visits, Quiet v) :
    (step (E.through r') a).2 = (step E b).2 ∧ Like R (step (E.through r') a).1 (step E b).1 := by
  obtain ⟨c, x, y, rfl, rfl, hr⟩ := h.elim
  unfold step at hq ⊢
  have ex : (c.on x).client = c.client := rfl
  have ey : (c.on y).client = c.client := rfl
  have fx : (c.on x).parser = c.parser := rfl
  have fy : (c.on y).parser = c.parser := rfl
  rw [ey, fy] at hq
  have eF : (E.through r').F = E.F := rfl
  rw [ex, ey, fx, fy, eF]
  generalize c.client.read = r at hq ⊢
  obtain ⟨⟨data, oe⟩, client⟩ := r
  cases oe with
  | some e => exact closing_like ag ⟨hr, rfl⟩ _ hq
  | none =>
    dsimp only at hq ⊢
    generalize Parser.parse E.F c.parser data = pr at hq ⊢
    obtain ⟨parser, res⟩ := pr
    cases res with
    | pending => exact ⟨rfl, ⟨hr, rfl⟩⟩
    | panic => exact ⟨rfl, ⟨hr, rfl⟩⟩
    | error e =>
      dsimp only at hq ⊢
      unfold rejecting at hq ⊢
      have hl : Like R ({ c with parser, client }.on x) ({ c with parser, client }.on y) := ⟨hr, rfl⟩
      have hq' : ∀ v ∈ (onError E ({ c with parser, client }.on y) (.http e)).2.visits, Quiet v := by
        intro v hv
        apply hq
        change v ∈ (match onError E ({ c with parser, client }.on y) (.http e) with
          | (none, c) => _ | (some resp, c) => _ : Conn σ ρ × Option Ended).1.visits
        generalize onError E ({ c with parser, client }.on y) (.http e) = q at hv ⊢
        obtain ⟨q1, q2⟩ := q
        cases q1 <;> exact hv
      obtain ⟨h1, h2⟩ := onError_like ag hl (.http e) hq'
      change (match onError (E.through r') ({ c with parser, client }.on x) (.http e) with
          | (none, c) => _ | (some resp, c) => _ : Conn σ ρ' × Option Ended).2 =
        (match onError E ({ c with parser, client }.on y) (.http e) with
          | (none, c) => _ | (some resp, c) => _ : Conn σ ρ × Option Ended).2 ∧
        Like R (match onError (E.through r') ({ c with parser, client }.on x) (.http e) with
          | (none, c) => _ | (some resp, c) => _ : Conn σ ρ' × Option Ended).1
        (match onError E ({ c with parser, client }.on y) (.http e) with
          | (none, c) => _ | (some resp, c) => _ : Conn σ ρ × Option Ended).1
      generalize onError (E.through r') ({ c with parser, client }.on x) (.http e) = p at h1 h2 ⊢
      generalize onError E ({ c with parser, client }.on y) (.http e) = q at h1 h2 ⊢
      obtain ⟨p1, p2⟩ := p
      obtain ⟨q1, q2⟩ := q
      dsimp only at h1 h2
      subst h1
      obtain ⟨c', x', y', rfl, rfl, hr'⟩ := h2.elim
      cases p1 <;> exact ⟨rfl, ⟨hr', rfl⟩⟩
    | completed extra =>
      dsimp only at hq ⊢
      unfold headersCompleted at hq ⊢
      have hpre : ∃ v, ∃ c' : Conn σ ρ, (∀ z : ρ', preResponse (E.through r') ({ c with parser, client }.on z) = (v, Conn.on c' z)) ∧
          ∀ z : ρ, preResponse E ({ c with parser, client }.on z) = (v, Conn.on c' z) := by
        refine ⟨(preResponse E { c with parser, client }).1, (preResponse E { c with parser, client }).2, fun z => ?_, fun z => ?_⟩ <;>
        · unfold preResponse
          by_cases hu : upgrades ({ c with parser, client } : Conn σ ρ).req = true
          · have hu' : upgrades ({ c with parser, client }.on z).req = true := hu
            rw [if_pos hu, if_pos hu']; rfl
          · have hu' : ¬ upgrades ({ c with parser, client }.on z).req = true := hu
            rw [if_neg hu, if_neg hu']; rfl
      obtain ⟨v, c', hpre, hpre'⟩ := hpre
      have px : preResponse (E.through r') { (c.on x) with parser, client } = (v, Conn.on c' x) := hpre x
      have py : preResponse E { (c.on y) with parser, client } = (v, Conn.on c' y) := hpre' y
      rw [py] at hq
      rw [px, py]
      dsimp only at hq ⊢
      have hl : Like R ({ (c'.on x) with client := (c'.on x).client.unread extra, body := (c'.on x).body.initFor (c'.on x).req })
        ({ (c'.on y) with client := (c'.on y).client.unread extra, body := (c'.on y).body.initFor (c'.on y).req }) := ⟨hr, rfl⟩
      generalize ({ (c'.on x) with client := (c'.on x).client.unread extra, body := (c'.on x).body.initFor (c'.on x).req } : Conn σ ρ') = a at hl ⊢
      generalize ({ (c'.on y) with client := (c'.on y).client.unread extra, body := (c'.on y).body.initFor (c'.on y).req } : Conn σ ρ) = b at hl hq ⊢
      have hq' : ∀ v ∈ (onRequest E b).2.visits, Quiet v := by
        intro v hv
        apply hq
        generalize onRequest E b = q at hv ⊢
        obtain ⟨q1, q2⟩ := q
        cases q1 with
        | none => exact hv
        | some resp => exact respond_grows q2 _ _ v hv
      obtain ⟨h1, h2⟩ := onRequest_like ag hl hq'
      generalize onRequest (E.through r') a = p at h1 h2 ⊢
      generalize onRequest E b = q at h1 h2 hq ⊢
      obtain ⟨p1, p2⟩ := p
      obtain ⟨q1, q2⟩ := q
      dsimp only at h1 h2
      subst h1
      cases p1 with
      | none => exact ⟨rfl, h2⟩
      | some resp => exact respond_like ag h2 _ _ hq

private theorem rejecting_grows (c : Conn σ ρ) (e : Status.HTTPError) : ∀ v ∈ c.visits, v ∈ (rejecting E c e).1.visits := by
  intro v hv
  have := onError_grows (E := E) c (.http e) v hv
  unfold rejecting
  generalize onError E c (.http e) = q at this ⊢
  obtain ⟨q1, q2⟩ := q
  cases q1 <;> exact this

theorem step_grows (c : Conn σ ρ) : ∀ v ∈ c.visits, v ∈ (step E c).1.visits := by
  intro v hv
  have key : ∀ (c' : Conn σ ρ) extra, v ∈ c'.visits → v ∈ (headersCompleted E c' extra).1.visits := by
    intro c' extra hv
    unfold headersCompleted
    have h1 : (preResponse E c').2.visits = c'.visits := by unfold preResponse; split <;> rfl
    generalize preResponse E c' = pr at h1 ⊢
    obtain ⟨p, c₁⟩ := pr
    dsimp only at h1 ⊢
    have h2 := onRequest_grows (E := E) { c₁ with client := c₁.client.unread extra, body := c₁.body.initFor c₁.req } v
      (by dsimp only; rw [h1]; exact hv)
    generalize onRequest E { c₁ with client := c₁.client.unread extra, body := c₁.body.initFor c₁.req } = q at h2 ⊢
    obtain ⟨q1, q2⟩ := q
    cases q1 with
    | none => exact h2
    | some resp => exact respond_grows q2 _ _ v h2
  unfold step
  split
  · exact closing_grows (E := E) { c with client := _ } _ v hv
  · split
    · exact hv
    · exact key _ _ hv
    · exact rejecting_grows (E := E) { c with parser := _, client := _ } _ v hv
    · exact hv

theorem loop_grows (n : Nat) : ∀ c : Conn σ ρ, ∀ v ∈ c.visits, v ∈ (serveLoop E n c).1.visits := by
  induction n with
  | zero => intro c v hv; exact hv
  | succ n ih =>
    intro c v hv
    have := step_grows (E := E) c v hv
    unfold serveLoop
    generalize step E c = q at this ⊢
    obtain ⟨q1, q2⟩ := q
    cases q2 with
    | none => exact ih q1 v this
    | some => exact this

/-- All iterations. -/
theorem serve_like (ag : Agrees E r' R Quiet) {a : Conn σ ρ'} {b : Conn σ ρ} (h : Like R a b)
    (hq : ∀ v ∈ (serve E b).1.visits, Quiet v) :
    (serve (E.through r') a).2 = (serve E b).2 ∧ Like R (serve (E.through r') a).1 (serve E b).1 := by
  have hs : a.client.size = b.client.size := by rw [h.same]; rfl
  unfold serve at hq ⊢
  rw [hs]
  generalize b.client.size + 1 = n at hq ⊢
  clear hs
  induction n generalizing a b with
  | zero => exact ⟨rfl, h⟩
  | succ n ih =>
    have hq' : ∀ v ∈ (step E b).1.visits, Quiet v := by
      intro v hv
      apply hq
      unfold serveLoop
      generalize step E b = q at hv ⊢
      obtain ⟨q1, q2⟩ := q
      cases q2 with
      | none => exact loop_grows n q1 v hv
      | some => exact hv
    obtain ⟨h1, h2⟩ := step_like ag h hq'
    unfold serveLoop at hq ⊢
    generalize step (E.through r') a = p at h1 h2 ⊢
    generalize step E b = q at h1 h2 hq ⊢
    obtain ⟨p1, p2⟩ := p
    obtain ⟨q1, q2⟩ := q
    dsimp only at h1 h2
    subst h1
    cases p2 with
    | none => exact ih h2 hq
    | some => exact ⟨rfl, h2⟩

/-- States of the router closed under everything it is asked for. -/
structure Closed (E : Setup σ ρ) (C : ρ → Prop) : Prop where
  request : ∀ x req, C x → C (E.router.onRequest x req).2
  error : ∀ x req e, C x → C (E.router.onError x req e).2

theorem step_closed {C : ρ → Prop} (hc : Closed E C) (c : Conn σ ρ) (h : C c.router) : C (step E c).1.router := by
  have ag : Agrees E E.router (fun x y => x = y ∧ C x) (fun _ : Visit σ => True) := by
    constructor
    · rintro x y req ⟨rfl, -⟩ -; rfl
    · rintro x y req e ⟨rfl, -⟩ -; rfl
    · rintro x y req ⟨rfl, h⟩ -; exact ⟨rfl, hc.request x req h⟩
    · rintro x y req e ⟨rfl, h⟩ -; exact ⟨rfl, hc.error x req e h⟩
  exact (step_like ag (a := c) (b := c) ⟨⟨rfl, h⟩, rfl⟩ (fun _ _ => trivial)).2.rel.2

theorem tick_crashed (s : Crowd σ ρ) (i : Nat) (h : s.crashed) : (s.tick E i) = s := by
  unfold Crowd.tick; rw [if_pos h]

theorem run_crashed (schedule : List Nat) : ∀ s : Crowd σ ρ, s.crashed → (s.run E schedule) = s := by
  induction schedule with
  | nil => intro s _; rfl
  | cons i is ih =>
    intro s h
    show (s.tick E i).run E is = s
    rw [tick_crashed s i h]
    exact ih s h

/-- What connection `i` is in the crowd is what it is alone. -/
theorem run_alone {C : ρ → Prop} (hc : Closed E C)
    (hreq : ∀ x y req, C x → C y → (∃ w a l, Quiet (.request req w a l)) →
      (E.router.onRequest x req).1 = (E.router.onRequest y req).1)
    (herr : ∀ x y req e, C x → C y → (∃ a l, Quiet (.error req e a l)) →
      (E.router.onError x req e).1 = (E.router.onError y req e).1)
    (i : Nat) (c0 : Served σ ρ) (quiet : ∀ n, ∀ v ∈ (alone E c0 n).conn.visits, Quiet v)
    (schedule : List Nat) : ∀ (s : Crowd σ ρ) (n0 : Nat) (c : Served σ ρ), C s.router → s.conns[i]? = some c →
      c.ended = (alone E c0 n0).ended → c.conn = (alone E c0 n0).conn.on c.conn.router → C (alone E c0 n0).conn.router →
      ∃ n c', (s.run E schedule).conns[i]? = some c' ∧ n0 ≤ n ∧ n ≤ n0 + schedule.count i ∧
        c'.ended = (alone E c0 n).ended ∧ c'.conn = (alone E c0 n).conn.on c'.conn.router ∧
        (¬ (s.run E schedule).crashed → n = n0 + schedule.count i) := by
  have ag : Agrees E E.router (fun x y => C x ∧ C y) Quiet := by
    constructor
    · rintro x y req ⟨h1, h2⟩ h; exact hreq x y req h1 h2 h
    · rintro x y req e ⟨h1, h2⟩ h; exact herr x y req e h1 h2 h
    · rintro x y req ⟨h1, h2⟩ -; exact ⟨hc.request x req h1, hc.request y req h2⟩
    · rintro x y req e ⟨h1, h2⟩ -; exact ⟨hc.error x req e h1, hc.error y req e h2⟩
  induction schedule with
  | nil =>
    intro s n0 c _ h1 h2 h3 _
    exact ⟨n0, c, h1, Nat.le_refl _, by simp, h2, h3, by simp⟩
  | cons k ks ih =>
    intro s n0 c hs h1 h2 h3 h4
    by_cases hcr : s.crashed
    · refine ⟨n0, c, ?_, Nat.le_refl _, by omega, h2, h3, ?_⟩
      · rw [run_crashed _ s hcr]; exact h1
      · rw [run_crashed _ s hcr]; exact fun h => absurd hcr h
    · have hrun : s.run E (k :: ks) = (s.tick E k).run E ks := rfl
      rw [hrun]
      by_cases hk : k = i
      · subst hk
        have hcount : (k :: ks).count k = ks.count k + 1 := by simp
        rw [hcount]
        unfold Crowd.tick
        rw [if_neg hcr, h1]
        dsimp only
        cases he : c.ended with
        | some why =>
          dsimp only
          rw [he] at h2
          have hn : alone E c0 (n0 + 1) = alone E c0 n0 := by
            rw [alone]; dsimp only; rw [← h2]
          obtain ⟨n, c', g1, g2, g3, g4, g5, g6⟩ := ih s (n0 + 1) c hs h1 (by rw [hn, he, h2]) (by rw [hn]; exact h3)
            (by rw [hn]; exact h4)
          exact ⟨n, c', g1, by omega, by omega, g4, g5, fun h => by have := g6 h; omega⟩
        | none =>
          dsimp only
          rw [he] at h2
          have hn : alone E c0 (n0 + 1) = ⟨(step E (alone E c0 n0).conn).1, (step E (alone E c0 n0).conn).2⟩ := by
            rw [alone]; dsimp only; rw [← h2]
          have hlike : Like (fun x y => C x ∧ C y) (c.conn.on s.router) (alone E c0 n0).conn := by
            refine ⟨⟨hs, h4⟩, ?_⟩
            rw [h3]; rfl
          have hq : ∀ v ∈ (step E (alone E c0 n0).conn).1.visits, Quiet v := by
            have := quiet (n0 + 1)
            rw [hn] at this
            exact this
          obtain ⟨e1, e2⟩ := step_like ag hlike hq
          have hlen : k < s.conns.length := (List.getElem?_eq_some_iff.1 h1).1
          obtain ⟨n, c', g1, g2, g3, g4, g5, g6⟩ := ih
            { router := (step E (c.conn.on s.router)).1.router,
              conns := s.conns.set k { conn := (step E (c.conn.on s.router)).1, ended := (step E (c.conn.on s.router)).2 } }
            (n0 + 1) { conn := (step E (c.conn.on s.router)).1, ended := (step E (c.conn.on s.router)).2 } e2.rel.1
            (by simp [hlen]) (by rw [hn]; exact e1) (by rw [hn]; exact e2.same) (by rw [hn]; exact e2.rel.2)
          exact ⟨n, c', g1, by omega, by omega, g4, g5, fun h => by have := g6 h; omega⟩
      · have hcount : (k :: ks).count i = ks.count i := by
          rw [List.count_cons]; simp [hk]
        rw [hcount]
        have htick : C (s.tick E k).router ∧ (s.tick E k).conns[i]? = some c := by
          unfold Crowd.tick
          rw [if_neg hcr]
          split
          · exact ⟨hs, h1⟩
          · split
            · exact ⟨hs, h1⟩
            · refine ⟨step_closed hc _ hs, ?_⟩
              dsimp only
              rw [List.getElem?_set_ne hk]
              exact h1
        exact ih (s.tick E k) n0 c htick.1 htick.2 h2 h3 h4

end Indigo.Serve
