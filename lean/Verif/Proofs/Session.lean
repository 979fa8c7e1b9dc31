/-
The serving loop, whatever comes on the connection.
-/
import Verif.Spec.Session
import Verif.Proofs.SessionParser
import Verif.Proofs.Serve5

namespace Indigo.Serve
open Indigo.Spec Indigo.Body Indigo.Parser
variable {σ ρ : Type}

/-- A request the router is called with. -/
structure Sees (seen : Request) : Prop where
  hijacked : seen.wasHijacked = false
  version : Versioned seen
  upgrade : Known seen.Upgrade
  path : seen.Path ≠ []
  method : seen.Method ≠ .Unknown

/-- What happens on a connection. `old` is the request object before. -/
inductive Session (E : Setup σ ρ) : Request → ρ → Serializer → Fields → List (Option GoErr) → List (Visit σ) → List Bytes → Ended → Prop
  | crashed {old st d pre ws} : Session E old st d pre ws [] [] .panicked
  | silent {old st d pre ws seen ans left frames} : Told E st seen closeError (ans, left) → (left.hijacked = false → frames = []) →
      Session E old st d pre ws [.error seen closeError ans left] frames (if ans.isSome then .readFailed else .panicked)
  | refusedPanic {old st d pre ws seen e left more} : e ∈ headErrors → Told E st seen (.http e) (none, left) → (left.hijacked = false → more = []) →
      Session E old st d pre ws [.error seen (.http e) none left] more .panicked
  | refused {old st d pre ws seen e f req left more w} : e ∈ headErrors → (e ≠ Status.ErrUnsupportedProtocol → Versioned old → Versioned seen) →
      Told E st seen (.http e) (some (f, req), left) → (left.hijacked = false → more = [] ∧ left.client.wscript = ws) →
      w = Serializer.write E.F d req.Proto req f { wscript := left.client.wscript } →
      Session E old st d pre ws [.error seen (.http e) (some (f, req)) left] (more ++ w.client.written) (if w.out = .panic then .panicked else .rejected)
  | panicked {old st d pre ws seen world left frames} : Sees seen → Answers E st seen world (none, left) → (left.hijacked = false → frames = []) →
      Session E old st d pre ws [.request seen world none left] frames .panicked
  | hijacked {old st d pre ws seen world answer left frames} : Sees seen → Answers E st seen world (some answer, left) → left.hijacked = true →
      Session E old st d pre ws [.request seen world (some answer) left] frames .hijacked
  | broken {old st d pre ws seen world f req left w} : Sees seen → Answers E st seen world (some (f, req), left) → left.hijacked = false →
      w = Serializer.write E.F (opening E.F d pre seen).2.1 (opening E.F d pre seen).1 req f { wscript := ws } → w.out = .panic →
      Session E old st d pre ws [.request seen world (some (f, req)) left] w.client.written .panicked
  | closed {old st d pre ws seen world f req left w seen' ans left' more why} : Sees seen → Answers E st seen world (some (f, req), left) → left.hijacked = false →
      w = Serializer.write E.F (opening E.F d pre seen).2.1 (opening E.F d pre seen).1 req f { wscript := ws } → w.out ≠ .panic →
      Told E (E.router.onRequest st seen).2 seen' closeError (ans, left') → (left'.hijacked = false → more = []) →
      why = (if w.out = .done none then .clearFailed else .writeFailed) →
      Session E old st d pre ws [.request seen world (some (f, req)) left, .error seen' closeError ans left'] (w.client.written ++ more)
        (if ans.isSome then why else .panicked)
  | next {old st d pre ws seen world f req left w vs frames why} : Sees seen → Answers E st seen world (some (f, req), left) → left.hijacked = false →
      w = Serializer.write E.F (opening E.F d pre seen).2.1 (opening E.F d pre seen).1 req f { wscript := ws } → w.out = .done none →
      Session E req (E.router.onRequest st seen).2 w.ser (opening E.F d pre seen).2.2 w.client.wscript vs frames why →
      Session E old st d pre ws (.request seen world (some (f, req)) left :: vs) (w.client.written ++ frames) why

theorem Session.mono {E : Setup σ ρ} {old old' st d pre ws vs frames why} (h : Session E old' st d pre ws vs frames why) (hv : Versioned old → Versioned old') :
    Session E old st d pre ws vs frames why := by
  cases h with
  | crashed => exact .crashed
  | silent a b => exact .silent a b
  | refusedPanic a b c => exact .refusedPanic a b c
  | refused a b c d e => exact .refused a (fun x y => b x (hv y)) c d e
  | panicked a b c => exact .panicked a b c
  | hijacked a b c => exact .hijacked a b c
  | broken a b c d e => exact .broken a b c d e
  | closed a b c d e f g i => exact .closed a b c d e f g i
  | next a b c d e f => exact .next a b c d e f

/-- A connection which is being served. -/
structure Live (c : Conn σ ρ) : Prop where
  at_ : At c.parser.state c.parser
  hijacked : c.req.wasHijacked = false

theorem errors_head {e : Status.HTTPError} (h : e ∈ errors) : e ∈ headErrors := by
  revert e; decide

theorem read_keeps (c : Client) : c.read.2.written = c.written ∧ c.read.2.wscript = c.wscript := by
  unfold Client.read
  split
  · exact ⟨rfl, rfl⟩
  · split <;> exact ⟨rfl, rfl⟩

theorem serve_session (E : Setup σ ρ) : ∀ (n : Nat) (c c' : Conn σ ρ) (why : Ended), Live c → serveLoop E n c = (c', some why) →
    ∃ vs frames, c'.visits = c.visits ++ vs ∧ c'.client.written = c.client.written ++ frames ∧
      Session E c.req c.router c.ser c.upgradePreResp c.client.wscript vs frames why := by
  intro n
  induction n with
  | zero => intro c c' why _ h; cases h
  | succ n ih =>
    intro c c' why live h
    unfold serveLoop step at h
    obtain ⟨r1, r2⟩ := read_keeps c.client
    rcases hr : c.client.read with ⟨⟨data, err⟩, cl⟩
    rw [hr] at h r1 r2
    dsimp only at h r1 r2
    cases err with
    | some x =>
      dsimp only at h
      obtain ⟨c1, ans, left, more, k1, k2, k3, k4, k5⟩ := closing_eq E { c with client := cl } .readFailed
      rw [k1] at h
      simp only [Prod.mk.injEq, Option.some.injEq] at h
      obtain ⟨rfl, rfl⟩ := h
      exact ⟨_, more, k2, by rw [k3, ← r1], .silent ⟨_, live.hijacked, k5⟩ k4⟩
    | none =>
      dsimp only at h
      have hat := parse_at E.F c.parser data live.at_
      have hrest := (parse_rest E.F c.parser data).rest
      rcases hp : Parser.parse E.F c.parser data with ⟨p', res⟩
      rw [hp] at h hat hrest
      have hhij : p'.req.wasHijacked = false := by
        simp only [restOf, Prod.mk.injEq] at hrest
        rw [hrest.2.2.2.2.1]; exact live.hijacked
      cases res with
      | pending =>
        dsimp only at h
        obtain ⟨vs, frames, h1, h2, h3⟩ := ih _ _ _ ⟨hat.1, hhij⟩ h
        exact ⟨vs, frames, h1, by rw [h2, ← r1], by rw [← r2]; exact h3.mono hat.2⟩
      | panic =>
        simp only [Prod.mk.injEq, Option.some.injEq] at h
        obtain ⟨rfl, rfl⟩ := h
        exact ⟨[], [], by simp, by simp [r1], .crashed⟩
      | error e =>
        dsimp only at h
        unfold rejecting at h
        rw [onError_eq] at h
        have hpre := run_prefix E.P E.maxAlloc (E.router.onError c.router p'.req (.http e)).1
          { body := c.body, client := cl, hijacked := p'.req.wasHijacked }
        have hout := run_out E.P E.maxAlloc (E.router.onError c.router p'.req (.http e)).1
          { body := c.body, client := cl, hijacked := p'.req.wasHijacked }
        rw [show ({ c with parser := p', client := cl } : Conn σ ρ).world = { body := c.body, client := cl, hijacked := p'.req.wasHijacked } from rfl] at h
        rw [show ({ c with parser := p', client := cl } : Conn σ ρ).req = p'.req from rfl] at h
        dsimp only at h
        rcases hx : (E.router.onError c.router p'.req (.http e)).1.run E.P E.maxAlloc
          { body := c.body, client := cl, hijacked := p'.req.wasHijacked } with ⟨o, w⟩
        rw [hx] at h hpre hout
        obtain ⟨more, hmore⟩ := hpre
        dsimp only at hmore hout h
        have hm : w.hijacked = false → more = [] ∧ w.client.wscript = c.client.wscript := by
          intro hh
          have := hout hh
          refine ⟨?_, by rw [this.2, r2]⟩
          have := this.1
          rw [← hmore] at this
          simpa using this
        cases o with
        | none =>
          simp only [Option.map, Prod.mk.injEq, Option.some.injEq] at h
          obtain ⟨rfl, rfl⟩ := h
          exact ⟨_, more, rfl, by rw [← r1]; exact hmore.symm, .refusedPanic (errors_head hat.1) ⟨_, hhij, hx⟩ (fun hh => (hm hh).1)⟩
        | some fr =>
          obtain ⟨f, req⟩ := fr
          simp only [Option.map, Option.getD] at h
          rw [show ∀ (a : ρ) (b : Request) (x : Act.World σ) (v : Visit σ), (({ c with parser := p', client := cl } : Conn σ ρ).after a b x v).req = { b with wasHijacked := x.hijacked } from
            fun _ _ _ _ => rfl] at h
          rw [show ∀ (a : ρ) (b : Request) (x : Act.World σ) (v : Visit σ), (({ c with parser := p', client := cl } : Conn σ ρ).after a b x v).client = x.client from
            fun _ _ _ _ => rfl] at h
          rw [show ∀ (a : ρ) (b : Request) (x : Act.World σ) (v : Visit σ), (({ c with parser := p', client := cl } : Conn σ ρ).after a b x v).ser = c.ser from
            fun _ _ _ _ => rfl] at h
          rw [write_hijacked, Serializer.write_eq_onto] at h
          simp only [Prod.mk.injEq, Option.some.injEq] at h
          obtain ⟨rfl, rfl⟩ := h
          refine ⟨[.error p'.req (.http e) (some (f, req)) w],
            more ++ (Serializer.write E.F c.ser req.Proto req f { wscript := w.client.wscript }).client.written, rfl, ?_, ?_⟩
          rotate_left
          · have := Session.refused (E := E) (old := c.req) (st := c.router) (d := c.ser) (pre := c.upgradePreResp) (ws := c.client.wscript)
              (errors_head hat.1) hat.2 ⟨_, hhij, hx⟩ hm rfl
            revert this
            cases (Serializer.write E.F c.ser req.Proto req f { wscript := w.client.wscript }).out with
            | panic => exact id
            | done x => simp
          · simp only [Serializer.onto]
            rw [← hmore, r1]
            simp
      | completed extra =>
        obtain ⟨hv, hup, hst⟩ := hat
        dsimp only at h
        unfold headersCompleted at h
        rw [preResponse_eq E { c with parser := p', client := cl } hup] at h
        have seen : Sees p'.req := ⟨hhij, hv.1, hup, hv.2.1, hv.2.2⟩
        dsimp only at h
        rw [onRequest_eq] at h
        generalize hd : opening E.F c.ser c.upgradePreResp p'.req = d at h
        generalize hc1 : ({ c with
            parser := p'
            ser := d.2.1
            upgradePreResp := d.2.2
            client := cl.unread extra
            body := c.body.initFor p'.req } : Conn σ ρ) = c1 at h
        have e1 : c1.req = p'.req := by rw [← hc1]
        have e2 : c1.router = c.router := by rw [← hc1]
        have e3 : c1.world = { body := c.body.initFor p'.req, client := cl.unread extra, hijacked := false } := by
          rw [← hc1, ← hhij]; rfl
        have e4 : c1.body = c.body.initFor p'.req := by rw [← hc1]
        have e5 : c1.client = cl.unread extra := by rw [← hc1]
        have e6 : c1.visits = c.visits := by rw [← hc1]
        rw [e1, e2, e3, e4, e5] at h
        rcases hx : (E.router.onRequest c.router p'.req).1.run E.P E.maxAlloc
          { body := c.body.initFor p'.req, client := cl.unread extra, hijacked := false } with ⟨o, w⟩
        have hans : Answers E c.router p'.req (c.body.initFor p'.req, cl.unread extra) (o, w) := hx
        have hpre := run_prefix E.P E.maxAlloc (E.router.onRequest c.router p'.req).1
          { body := c.body.initFor p'.req, client := cl.unread extra, hijacked := false }
        have hout := run_out E.P E.maxAlloc (E.router.onRequest c.router p'.req).1
          { body := c.body.initFor p'.req, client := cl.unread extra, hijacked := false }
        rw [hx] at h hpre hout
        obtain ⟨frames, hframes⟩ := hpre
        dsimp only at hframes hout h
        have hw0 : (cl.unread extra).written = c.client.written := r1
        rw [hw0] at hframes
        cases o with
        | none =>
          simp only [Option.map, Prod.mk.injEq, Option.some.injEq] at h
          obtain ⟨rfl, rfl⟩ := h
          refine ⟨_, frames, by simp only [Conn.after, e6], hframes.symm, .panicked seen hans fun hh => ?_⟩
          have := (hout hh).1
          rw [← hframes, hw0] at this
          simpa using this
        | some fr =>
          obtain ⟨f, req⟩ := fr
          simp only [Option.map, Option.getD] at h
          generalize hc2 : c1.after (E.router.onRequest c.router p'.req).2 req w
            (.request p'.req (c.body.initFor p'.req, cl.unread extra) (some (f, req)) w) = c2 at h
          have f1 : c2.req = { req with wasHijacked := w.hijacked } := by rw [← hc2]; rfl
          have f2 : c2.client = w.client := by rw [← hc2]; rfl
          have f3 : c2.ser = d.2.1 := by rw [← hc2, ← hc1]; rfl
          have f4 : c2.visits = c.visits ++ [.request p'.req (c.body.initFor p'.req, cl.unread extra) (some (f, req)) w] := by
            rw [← e6, ← hc2]; rfl
          have f5 : c2.body = w.body := by rw [← hc2]; rfl
          have f6 : c2.router = (E.router.onRequest c.router p'.req).2 := by rw [← hc2]; rfl
          have f7 : c2.upgradePreResp = d.2.2 := by rw [← hc2, ← hc1]; rfl
          have f8 : c2.parser = { p' with req := { req with wasHijacked := w.hijacked } } := by rw [← hc2, ← hc1]; rfl
          unfold respond at h
          rw [f1, f2, f3] at h
          cases hh : w.hijacked with
          | true =>
            rw [hh] at h
            simp only [if_true, Prod.mk.injEq, Option.some.injEq] at h
            obtain ⟨rfl, rfl⟩ := h
            exact ⟨_, frames, f4, by rw [f2]; exact hframes.symm, .hijacked seen hans hh⟩
          | false =>
            obtain ⟨l2, l3⟩ := hout hh
            have hws' : w.client.wscript = c.client.wscript := l3.trans r2
            have hww : w.client.written = c.client.written := l2.trans r1
            generalize hW : Serializer.write E.F d.2.1 d.1 req f { wscript := c.client.wscript } = W
            have hwrite : Serializer.write E.F d.2.1 d.1 { req with wasHijacked := w.hijacked } f w.client =
                { W with client := Serializer.onto w.client W.client } := by
              rw [write_hijacked, Serializer.write_eq_onto, hws', hW]
            rw [hwrite] at h
            simp only [hh, Bool.false_eq_true, if_false] at h
            have hW' : W = Serializer.write E.F (opening E.F c.ser c.upgradePreResp p'.req).2.1
                (opening E.F c.ser c.upgradePreResp p'.req).1 req f { wscript := c.client.wscript } := by rw [hd, hW]
            have hclosing : ∀ (b : Body σ) (x : Client) (reason : Ended), x.written = w.client.written ++ W.client.written →
                W.out ≠ .panic → reason = (if W.out = .done none then .clearFailed else .writeFailed) →
                closing E { c2 with ser := W.ser, client := x, body := b } reason = (c', some why) →
                ∃ vs frames, c'.visits = c.visits ++ vs ∧ c'.client.written = c.client.written ++ frames ∧
                  Session E c.req c.router c.ser c.upgradePreResp c.client.wscript vs frames why := by
              intro b x reason hxw hnp hreason h
              obtain ⟨c3, ans, left', more, k1, k2, k3, k4, k5⟩ := closing_eq E { c2 with ser := W.ser, client := x, body := b } reason
              rw [k1] at h
              simp only [Prod.mk.injEq, Option.some.injEq] at h
              obtain ⟨rfl, rfl⟩ := h
              dsimp only at k2 k3 k5
              rw [f4] at k2
              rw [hxw, hww] at k3
              rw [f6] at k5
              refine ⟨_, _, by rw [k2, List.append_assoc]; rfl, by rw [k3, List.append_assoc],
                .closed seen hans hh hW' hnp ⟨_, ?_, k5⟩ k4 hreason⟩
              show c2.req.wasHijacked = false
              rw [f1]; exact hh
            cases hout' : W.out with
            | panic =>
              rw [hout'] at h
              simp only [Prod.mk.injEq, Option.some.injEq] at h
              obtain ⟨rfl, rfl⟩ := h
              exact ⟨_, _, f4, by simp [Serializer.onto, hww], .broken seen hans hh hW' hout'⟩
            | done e =>
              rw [hout'] at h
              cases e with
              | some e =>
                dsimp only at h
                exact hclosing c2.body _ .writeFailed rfl (by simp [hout']) (by simp [hout']) (by
                  rcases hcl : closing E { c2 with ser := W.ser, client := Serializer.onto w.client W.client } .writeFailed with ⟨c9, why9⟩
                  rw [hcl] at h
                  obtain ⟨w9, hw9⟩ := closing_some E { c2 with ser := W.ser, client := Serializer.onto w.client W.client } .writeFailed
                  rw [hcl] at hw9
                  dsimp only at hw9
                  subst hw9
                  exact h)
              | none =>
                dsimp only at h
                unfold clearing at h
                dsimp only at h
                rw [f5] at h
                have d1 : (Body.discard E.P (Body.fuel (w.body, Serializer.onto w.client W.client)) (w.body, Serializer.onto w.client W.client)).2.2.written =
                    (Serializer.onto w.client W.client).written :=
                  discard_inv E.P (fun t => t.2.written = (Serializer.onto w.client W.client).written) (fun t ht => (retrieve_out E.P t).1.trans ht) _ _ rfl
                have d2 : (Body.discard E.P (Body.fuel (w.body, Serializer.onto w.client W.client)) (w.body, Serializer.onto w.client W.client)).2.2.wscript =
                    (Serializer.onto w.client W.client).wscript :=
                  discard_inv E.P (fun t => t.2.wscript = (Serializer.onto w.client W.client).wscript) (fun t ht => (retrieve_out E.P t).2.trans ht) _ _ rfl
                rcases hdisc : Body.discard E.P (Body.fuel (w.body, Serializer.onto w.client W.client)) (w.body, Serializer.onto w.client W.client) with ⟨x, b', cl2⟩
                rw [hdisc] at h d1 d2
                dsimp only at d1 d2
                cases x with
                | some x =>
                  dsimp only at h
                  refine hclosing b' cl2 .clearFailed d1 (by simp [hout']) (by simp [hout']) ?_
                  rcases hcl : closing E { c2 with ser := W.ser, client := cl2, body := b' } .clearFailed with ⟨c9, why9⟩
                  rw [hcl] at h
                  obtain ⟨w9, hw9⟩ := closing_some E { c2 with ser := W.ser, client := cl2, body := b' } .clearFailed
                  rw [hcl] at hw9
                  dsimp only at hw9
                  subst hw9
                  exact h
                | none =>
                  dsimp only at h
                  generalize hc3 : ({ c2 with
                    ser := W.ser, body := b', client := cl2
                    parser := { c2.parser with req := c2.req.reset } } : Conn σ ρ) = c3
                  have h : serveLoop E n c3 = (c', some why) := by rw [← hc3]; exact h
                  have live' : Live c3 := by
                    have g1 : c3.parser = { p' with req := c2.req.reset } := by rw [← hc3, f8]
                    refine ⟨?_, ?_⟩
                    · rw [g1]
                      refine ⟨fun _ => hst, fun hne => absurd hst hne, ?_, fun e => by rw [show _ = _ from hst] at e; cases e⟩
                      show Known Proto.Unknown
                      unfold Known; decide
                    · show c3.parser.req.wasHijacked = false
                      rw [g1, f1]; exact hh
                  obtain ⟨vs, frames', m1, m2, m3⟩ := ih c3 c' why live' h
                  have g2 : c3.req.Proto = req.Proto := by
                    rw [← hc3]
                    show c2.req.reset.Proto = req.Proto
                    rw [f1]; rfl
                  rw [← hc3] at m1 m2 m3
                  dsimp only at m1 m2 m3
                  rw [f6, f7, d2] at m3
                  refine ⟨_, _, by rw [m1, f4, List.append_assoc]; rfl, by rw [m2, d1]; simp only [Serializer.onto]; rw [hww, List.append_assoc],
                    .next seen hans hh hW' hout' ?_⟩
                  rw [hd]
                  refine Session.mono (old' := _) m3 ?_
                  rintro ⟨v, hv⟩
                  exact ⟨v, by rw [← hv, ← g2, ← hc3]⟩

end Indigo.Serve
