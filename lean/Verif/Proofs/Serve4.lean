/-
Conversations: the serving loop on a sequence of well-formed requests.
-/
import Verif.Proofs.Serve3

namespace Indigo.Serve
open Indigo.Spec Indigo.Body
variable {σ ρ : Type}

/-- What came of serving the connection `c`. -/
structure Came (E : Setup σ ρ) (c : Conn σ ρ) (vs : List (Visit σ)) (frames : List Bytes) (why : Ended) : Prop where
  why : (serve E c).2 = some why
  visits : (serve E c).1.visits = c.visits ++ vs
  written : (serve E c).1.client.written = c.client.written ++ frames

theorem serve_conversation (E : Setup σ ρ) (dec : DecodesChunked E.P) {L : Limits} {T limit : Nat}
    (uint : limit ≤ maxUint) {remote : Bytes} (after : Bytes) (post : List (Bytes × Option GoErr))
    (End : Environment → ρ → Serializer → Fields → List (Option GoErr) → List (Visit σ) → List Bytes → Ended → Prop)
    (hend : ∀ env (c : Conn σ ρ) cl, Idle E L T limit remote env c → c.client = followedBy cl post → Quiet cl →
      cl.stream = after → ∃ vs frames why, Came E c vs frames why ∧
        End env c.router c.ser c.upgradePreResp c.client.wscript vs frames why) :
    ∀ (ss : List Sending) (env : Environment) (c : Conn σ ρ) (cl : Client), Tame E c.router →
      Idle E L T limit remote env c → c.client = followedBy cl post → Quiet cl → (∀ s ∈ ss, Sendable E.F L T limit s) →
      cl.stream = ss.flatMap Sending.bytes ++ after →
      ∃ vs frames why, Came E c vs frames why ∧
        Conversation E T remote after post End env c.router c.ser c.upgradePreResp c.client.wscript ss vs frames why := by
  intro ss
  induction ss with
  | nil =>
    intro env c cl _ idle hc q _ stream
    obtain ⟨vs, frames, why, h1, h2⟩ := hend env c cl idle hc q (by simpa using stream)
    exact ⟨vs, frames, why, h1, .done h2⟩
  | cons s ss ih =>
    intro env c cl tame idle hc q ok stream
    obtain ⟨p', cl', h1, h2, h3, h4, h5, h6, h7, h8⟩ := serve_head E dec uint c idle cl q post hc s (ok s (by simp))
      (ss.flatMap Sending.bytes ++ after) (by rw [stream]; simp)
    have hwr : cl'.written = c.client.written := by rw [h4, hc]; rfl
    have hws : cl'.wscript = c.client.wscript := by rw [h5, hc]; rfl
    generalize hc1 : called E c p' (followedBy cl' post) = c1 at h8
    have e1 : c1.req = p'.req := by rw [← hc1]; rfl
    have e2 : c1.router = c.router := by rw [← hc1]; rfl
    have e3 : c1.world = { body := c.body.initFor p'.req, client := followedBy cl' post, hijacked := false } := by
      rw [← hc1]
      unfold Conn.world
      rw [show (called E c p' (followedBy cl' post)).parser.req.wasHijacked = false from h6.hijacked]
      rfl
    have e4 : (c1.body, c1.client) = (c.body.initFor p'.req, followedBy cl' post) := by rw [← hc1]; rfl
    rw [onRequest_eq, e1, e2, e3, e4] at h8
    rcases hx : (E.router.onRequest c.router p'.req).1.run E.P E.maxAlloc
      { body := c.body.initFor p'.req, client := followedBy cl' post, hijacked := false } with ⟨o, w⟩
    have hans : Answers E c.router p'.req (c.body.initFor p'.req, followedBy cl' post) (o, w) := hx
    have hpre := run_prefix E.P E.maxAlloc (E.router.onRequest c.router p'.req).1
      { body := c.body.initFor p'.req, client := followedBy cl' post, hijacked := false }
    have hleft := run_left E.P E.maxAlloc (E.router.onRequest c.router p'.req).1
      { body := c.body.initFor p'.req, client := followedBy cl' post, hijacked := false } h7
    have htame := tame [] p'.req { body := c.body.initFor p'.req, client := followedBy cl' post, hijacked := false }
    rw [show routerAfter E c.router [] = c.router from rfl] at htame
    rw [hx] at h8 hpre hleft htame
    dsimp only at h8 hpre hleft htame
    obtain ⟨frames, hframes⟩ := hpre
    have hvis : c1.visits = c.visits := by rw [← hc1]; rfl
    have hw0 : (followedBy cl' post).written = c.client.written := hwr
    cases o with
    | none =>
      refine ⟨_, frames, .panicked, ⟨?_, ?_, ?_⟩, .panicked h6 hans hframes.symm ?_⟩
      · rw [h8]; rfl
      · rw [h8]; simp [go, Conn.after, hvis]
      · rw [h8]; simp only [go, Conn.after, Option.map]; rw [← hframes, hw0]
      · intro hh
        have := (hleft hh).2.1
        rw [← hframes] at this
        simpa using this
    | some fr =>
      obtain ⟨f, req⟩ := fr
      dsimp only [Option.map, Option.getD] at h8
      cases hh : w.hijacked with
      | true =>
        refine ⟨_, frames, .hijacked, ⟨?_, ?_, ?_⟩, .hijacked h6 hans hframes.symm hh⟩
        · rw [h8]; simp [respond, Conn.after, Conn.req, hh, go]
        · rw [h8]; simp [respond, Conn.after, Conn.req, hh, go, hvis]
        · rw [h8]; simp only [respond, Conn.after, Conn.req, hh, if_true, go]; rw [← hframes, hw0]
      | false =>
        obtain ⟨l1, l2, l3⟩ := hleft hh
        obtain ⟨t1, t2, t3⟩ := htame f req (fun _ => h3.2) rfl
        generalize hd : opening E.F c.ser c.upgradePreResp p'.req = d at h8
        have hser : c1.ser = d.2.1 := by rw [← hc1, ← hd]; rfl
        have hws' : w.client.wscript = c.client.wscript := l3.trans hws
        have hww : w.client.written = c.client.written := l2.trans hw0
        generalize hW : Serializer.write E.F d.2.1 d.1 req f { wscript := c.client.wscript } = W
        have hwrite : Serializer.write E.F d.2.1 d.1 { req with wasHijacked := w.hijacked } f w.client =
            { W with client := Serializer.onto w.client W.client } := by
          rw [write_hijacked, Serializer.write_eq_onto, hws', hW]
        generalize hc2 : c1.after (E.router.onRequest c.router p'.req).2 req w
          (.request p'.req (c.body.initFor p'.req, followedBy cl' post) (some (f, req)) w) = c2 at h8
        have f1 : c2.req = { req with wasHijacked := w.hijacked } := by rw [← hc2]; rfl
        have f2 : c2.client = w.client := by rw [← hc2]; rfl
        have f3 : c2.ser = d.2.1 := by rw [← hser, ← hc2]; rfl
        unfold respond at h8
        rw [f1, f2, f3, hwrite] at h8
        simp only [hh, Bool.false_eq_true, if_false] at h8
        have f4 : c2.visits = c.visits ++ [.request p'.req (c.body.initFor p'.req, followedBy cl' post) (some (f, req)) w] := by
          rw [← hc2, ← hvis]; rfl
        have hW' : W = Serializer.write E.F (opening E.F c.ser c.upgradePreResp p'.req).2.1
            (opening E.F c.ser c.upgradePreResp p'.req).1 req f { wscript := c.client.wscript } := by rw [hd, hW]
        cases hout : W.out with
        | panic =>
          rw [hout] at h8
          refine ⟨_, W.client.written, .panicked, ⟨?_, ?_, ?_⟩, .broken h6 hans hh hW' hout⟩
          · rw [h8]; rfl
          · rw [h8]; exact f4
          · rw [h8]; simp [go, Serializer.onto, hww]
        | done e =>
          rw [hout] at h8
          cases e with
          | some e =>
            dsimp only at h8
            obtain ⟨c', ans, left', more, k1, k2, k3, k4, k5⟩ := closing_eq E
              { c2 with ser := W.ser, client := Serializer.onto w.client W.client } .writeFailed
            rw [k1] at h8
            have k5' := k5
            rw [show ({ c2 with ser := W.ser, client := Serializer.onto w.client W.client } : Conn σ ρ).router =
              (E.router.onRequest c.router p'.req).2 by rw [← hc2]; rfl] at k5'
            refine ⟨_, W.client.written ++ more, _, ⟨?_, ?_, ?_⟩, .closed (seen' := c2.req) (ans := ans) h6 hans hh hW' hout
              ⟨_, ?_, k5'⟩ k4⟩
            · rw [h8]; rfl
            · rw [h8]; simp only [go]; rw [k2, f4]; simp
            · rw [h8]; simp only [go]; rw [k3]; simp [Serializer.onto, hww]
            · show c2.req.wasHijacked = false
              rw [f1]; exact hh
          | none =>
            dsimp only at h8
            have hleft' : Left E.P limit (ss.flatMap Sending.bytes ++ after) post (w.body, Serializer.onto w.client W.client) :=
              left_withOut E.P limit _ post w.body w.client (Serializer.onto w.client W.client) l1
            obtain ⟨b', cl2, k1, k2, k3, k4, k5, k6, k7⟩ := left_discard E.P limit _ post _ _ hleft'
            have f5 : c2.body = w.body := by rw [← hc2]; rfl
            unfold clearing at h8
            simp only [f5, k1] at h8
            generalize hc3 : ({ c2 with
              ser := W.ser, body := b', client := followedBy cl2 post
              parser := { c2.parser with req := c2.req.reset } } : Conn σ ρ) = c3
            have h8 : serve E c = serve E c3 := by rw [← hc3]; exact h8
            have f6 : c3.req = c2.req.reset := by rw [← hc3]
            have f7 : c3.parser = { p' with req := c2.req.reset } := by rw [← hc3, ← hc2, ← hc1]; rfl
            have f8 : c3.client = followedBy cl2 post := by rw [← hc3]
            have f9 : c3.body = b' := by rw [← hc3]
            have f10 : c3.router = (E.router.onRequest c.router p'.req).2 := by rw [← hc3, ← hc2]; rfl
            have f11 : c3.ser = W.ser := by rw [← hc3]
            have f12 : c3.upgradePreResp = d.2.2 := by rw [← hc3, ← hc2, ← hc1, ← hd]; rfl
            have f13 : c3.visits = c2.visits := by rw [← hc3]
            have idle' : Idle E L T limit remote {} c3 := by
              constructor
              · rw [f7]; exact ⟨h2.state, h2.startLine, h2.keyBuf, h2.valBuf, h2.number, h2.length⟩
              · rw [f6]; exact reset_cleared _ (by rw [f1]; exact t1)
              · rw [f7, ← idle.limits]
                simp only [Parser.limits, h1.cfg, h1.line, h1.key, h1.val]
              · rw [f7, ← idle.tokens]; simp only [h1.cfg]
              · rw [f6]; rfl
              · rw [f6]; rfl
              · rw [f6]; rfl
              · rw [f6, f1]; exact t2.trans h6.remote
              · rw [f6, f1]; exact hh
              · rw [f6, f1]; show ∃ v, versionName req.Proto = some v; rw [t3]; exact named_version h6.carries.proto
              · rw [f9]; exact k4
              · rw [f9]; exact k5
            obtain ⟨vs, frames', why, m1, m2⟩ := ih {} c3 cl2 (by rw [f10]; exact fun history => tame (p'.req :: history)) idle' f8 k3 (fun s hs => ok s (by simp [hs])) k2
            rw [f10, f11, f12, f8] at m2
            rw [show (followedBy cl2 post).wscript = W.client.wscript from k7, ← hd] at m2
            refine ⟨_, _, why, ⟨?_, ?_, ?_⟩, .next h6 hans hh hW' hout m2⟩
            · rw [h8]; exact m1.why
            · rw [h8, m1.visits, f13, f4]; simp
            · rw [h8, m1.written, f8, show (followedBy cl2 post).written = w.client.written ++ W.client.written from k6, hww]
              simp

end Indigo.Serve
