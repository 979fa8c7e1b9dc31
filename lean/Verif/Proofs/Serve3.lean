/-
The serving loop on a sequence of well-formed requests.
-/
import Verif.Proofs.Serve2

namespace Indigo.Serve
open Indigo.Spec Indigo.Body
variable {σ ρ : Type}

/-- The connection when the router is called for a request. -/
def called (E : Setup σ ρ) (c : Conn σ ρ) (p : Parser.PState) (client : Client) : Conn σ ρ :=
  { c with
    parser := p, client
    ser := (opening E.F c.ser c.upgradePreResp p.req).2.1
    upgradePreResp := (opening E.F c.ser c.upgradePreResp p.req).2.2
    body := c.body.initFor p.req }

/-- The head of the next request is read, and the router is called with it. -/
theorem serve_head (E : Setup σ ρ) (dec : DecodesChunked E.P) {L : Limits} {T limit : Nat} (uint : limit ≤ maxUint)
    {remote env} (c : Conn σ ρ) (idle : Idle E L T limit remote env c) (cl : Client) (q : Quiet cl) (post)
    (hc : c.client = followedBy cl post) (s : Sending) (ok : Sendable E.F L T limit s) (after : Bytes)
    (stream : cl.stream = s.bytes ++ after) :
    ∃ p' cl', Parser.RestOK c.parser p' ∧ Parser.Ready p' ∧ (p'.req.Query.parsed = false ∧ p'.req.Query.params.pairs = []) ∧
      cl'.written = cl.written ∧ cl'.wscript = cl.wscript ∧
      Delivered E T remote post env s after p'.req (c.body.initFor p'.req, followedBy cl' post) ∧
      Left E.P limit after post (c.body.initFor p'.req, followedBy cl' post) ∧
      serve E c = go E (match onRequest E (called E c p' (followedBy cl' post)) with
        | (none, c2) => (c2, some .panicked)
        | (some resp, c2) => respond E (opening E.F c.ser c.upgradePreResp p'.req).1 c2 resp) := by
  have hfits : s.head.Fits (Parser.limits c.parser) := by rw [idle.limits]; exact ok.fits
  obtain ⟨p', extra, rest, h1, h2, h3, h4, h5⟩ := Props.C01_head_any_segmentation E.F c.parser idle.ready idle.cleared s.head
    ok.ok ok.clean ok.noBareEmpty hfits s.path ok.path (s.coded ++ after) (segs cl)
    (by rw [segs_flatten, stream]; simp [Sending.bytes])
  rw [idle.tokens] at h4
  have hrest := Parser.feed_rest E.F (segs cl) c.parser
  rw [h1] at hrest
  obtain ⟨cl1, g1, g2, g3, g4, g5, g6⟩ := serve_feed E post cl.size c cl p' (.completed extra) rest (Nat.le_refl _) hc q h1 nofun
  have hstream : (cl1.unread extra).stream = s.coded ++ after := by
    have := segs_flatten cl1
    rw [g3] at this
    rw [← h2, this]
    simp [Client.stream, Client.unread, g2]
  have hq1 : Quiet (cl1.unread extra) := g1
  obtain ⟨ds, b', c', k1, k2, k3, k4, k5, k6⟩ := framed_pieces E.P dec E.F T s ok.framed p'.req h4 c.body idle.decoder
    (by rw [idle.bodyMax]; exact ok.body) (by rw [idle.bodyMax]; exact uint) (cl1.unread extra) hq1 after hstream post
  have hr : Parser.restOf p'.req = Parser.restOf c.parser.req := hrest.rest
  simp only [Parser.restOf, Prod.mk.injEq] at hr
  obtain ⟨r1, r2, r3, r4, r5, r6⟩ := hr
  refine ⟨p', cl1.unread extra, hrest, h5, ⟨h4.query.2.1, h4.query.2.2⟩, g4, g5, ?_, ?_, ?_⟩
  · exact {
      carries := h4, path := h3
      params := by rw [r1]; exact idle.params
      ctx := by rw [r3]; exact idle.ctx
      env := by rw [r4]; exact idle.env
      remote := by rw [r2]; exact idle.remote
      hijacked := by rw [r5]; exact idle.hijacked
      fresh := ⟨c.body, rfl, idle.decoder⟩
      body := ⟨ds, b', c', k1, k2, k3, k4, k5⟩ }
  · exact ⟨ds, b', c', k1, k3, k4, k5, by rw [k6, idle.bodyMax]⟩
  · rw [g6]
    simp only [finish, headersCompleted]
    rw [preResponse_eq E _ (carries_upgrade h4)]
    rfl

theorem write_hijacked (F : Fold) (d : Serializer) (p : Proto) (req : Request) (f : Fields) (c : Client) (h : Bool) :
    d.write F p { req with wasHijacked := h } f c = d.write F p req f c := rfl

/-- The router's answer. -/
theorem onRequest_eq (E : Setup σ ρ) (c : Conn σ ρ) :
    onRequest E c =
      (((E.router.onRequest c.router c.req).1.run E.P E.maxAlloc c.world).1.map (·.1),
        c.after (E.router.onRequest c.router c.req).2
          ((((E.router.onRequest c.router c.req).1.run E.P E.maxAlloc c.world).1.map (·.2)).getD c.req)
          ((E.router.onRequest c.router c.req).1.run E.P E.maxAlloc c.world).2
          (.request c.req (c.body, c.client) ((E.router.onRequest c.router c.req).1.run E.P E.maxAlloc c.world).1
            ((E.router.onRequest c.router c.req).1.run E.P E.maxAlloc c.world).2)) := by
  unfold onRequest
  rcases E.router.onRequest c.router c.req with ⟨act, r⟩
  dsimp only
  rcases act.run E.P E.maxAlloc c.world with ⟨o, w⟩
  rcases o with _ | ⟨f, req⟩ <;> rfl

theorem onError_eq (E : Setup σ ρ) (c : Conn σ ρ) (e : GoErr) :
    onError E c e =
      (((E.router.onError c.router c.req e).1.run E.P E.maxAlloc c.world).1.map (·.1),
        c.after (E.router.onError c.router c.req e).2
          ((((E.router.onError c.router c.req e).1.run E.P E.maxAlloc c.world).1.map (·.2)).getD c.req)
          ((E.router.onError c.router c.req e).1.run E.P E.maxAlloc c.world).2
          (.error c.req e ((E.router.onError c.router c.req e).1.run E.P E.maxAlloc c.world).1
            ((E.router.onError c.router c.req e).1.run E.P E.maxAlloc c.world).2)) := by
  unfold onError
  rcases E.router.onError c.router c.req e with ⟨act, r⟩
  dsimp only
  rcases act.run E.P E.maxAlloc c.world with ⟨o, w⟩
  rcases o with _ | ⟨f, req⟩ <;> rfl

/-- The router is told about the end of the connection once. -/
theorem closing_eq (E : Setup σ ρ) (c : Conn σ ρ) (why : Ended) :
    ∃ c' ans left more, closing E c why = (c', some (if ans.isSome then why else .panicked)) ∧
      c'.visits = c.visits ++ [.error c.req closeError ans left] ∧ c'.client.written = c.client.written ++ more ∧
      (left.hijacked = false → more = []) ∧
      (E.router.onError c.router c.req closeError).1.run E.P E.maxAlloc c.world = (ans, left) := by
  unfold closing
  rw [onError_eq]
  rcases hx : (E.router.onError c.router c.req (.http Status.ErrCloseConnection)).1.run E.P E.maxAlloc c.world with ⟨o, w⟩
  have hp := run_prefix E.P E.maxAlloc (E.router.onError c.router c.req (.http Status.ErrCloseConnection)).1 c.world
  have ho := run_out E.P E.maxAlloc (E.router.onError c.router c.req (.http Status.ErrCloseConnection)).1 c.world
  rw [hx] at hp ho
  obtain ⟨more, hmore⟩ := hp
  dsimp only at hmore ho
  have hm : w.hijacked = false → more = [] := by
    intro hh
    have := (ho hh).1
    rw [← hmore] at this
    simpa [Conn.world] using this
  cases o with
  | none => exact ⟨_, none, w, more, rfl, rfl, hmore.symm, hm, rfl⟩
  | some a => exact ⟨_, some a, w, more, rfl, rfl, hmore.symm, hm, rfl⟩

end Indigo.Serve
