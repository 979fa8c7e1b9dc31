/-
How conversations end: silence of the client, and heads the parser rejects.
-/
import Verif.Proofs.Serve4

namespace Indigo.Serve
open Indigo.Spec Indigo.Body
variable {σ ρ : Type}

/-- Iterations while a head is coming in which does not come to its end. -/
theorem serve_pending (E : Setup σ ρ) (post : List (Bytes × Option GoErr)) (n : Nat) : ∀ (c : Conn σ ρ) (cl : Client) p' rest,
    cl.size ≤ n → c.client = followedBy cl post → Quiet cl →
    Parser.feed E.F c.parser (segs cl) = (p', .pending, rest) →
    serve E c = serve E { c with parser := p', client := { cl with pending := [], conn := post } } := by
  induction n with
  | zero =>
    intro c cl p' rest hn hc q hf
    have h1 : cl.pending = [] := by
      unfold Client.size at hn
      cases hp : cl.pending <;> simp [hp] at hn ⊢
    have h2 : cl.conn = [] := by
      unfold Client.size at hn
      cases hp : cl.conn with
      | nil => rfl
      | cons e es => rw [hp] at hn; simp at hn
    simp [segs, h1, h2, Parser.feed] at hf
    rw [← hf.1]
    have : ({ cl with pending := [], conn := post } : Client) = c.client := by
      rw [hc]; simp [followedBy, h1, h2]
    rw [this]
  | succ n ih =>
    intro c cl p' rest hn hc q hf
    cases hs : segs cl with
    | nil =>
      rw [hs] at hf
      simp [Parser.feed] at hf
      rw [← hf.1]
      have hs' := hs
      unfold segs at hs'
      rw [List.append_eq_nil_iff] at hs'
      have h1 : cl.pending = [] := by
        have := hs'.1
        split at this
        · assumption
        · cases this
      have h2 : cl.conn = [] := by simpa using hs'.2
      have : ({ cl with pending := [], conn := post } : Client) = c.client := by
        rw [hc]; simp [followedBy, h1, h2]
      rw [this]
    | cons d ds =>
      obtain ⟨cl1, h1, h2, h3, h4, h5, h6, h7⟩ := read_segs q d ds hs
      have hst := step_read E c d (followedBy cl1 post) (by rw [hc]; exact h1 post)
      rw [hs] at hf
      simp only [Parser.feed] at hf
      rcases hp : Parser.parse E.F c.parser d with ⟨p1, r1⟩
      rw [hp] at hf hst
      rw [serve_step, hst]
      cases r1 with
      | pending =>
        simp only at hf
        rw [← h3] at hf
        have := ih { c with parser := p1, client := followedBy cl1 post } cl1 p' rest (by omega) rfl h4 hf
        simp only [finish, go]
        rw [this, h5, h6]
      | completed ex => simp at hf
      | error e => simp at hf
      | panic => simp at hf

theorem silent_read {post} (h : Silent post) (c : Client) (hp : c.pending = []) (hc : c.conn = post) :
    ∃ d e, c.read.1 = (d, some e) ∧ c.read.2.written = c.written := by
  unfold Client.read
  rw [hp, hc]
  cases post with
  | nil => exact ⟨_, _, rfl, rfl⟩
  | cons ev post =>
    obtain ⟨d, e⟩ := ev
    cases e with
    | none => exact absurd rfl (h _ rfl)
    | some e => exact ⟨d, e, rfl, rfl⟩

/-- An unfinished head followed by silence. -/
theorem serve_silence (E : Setup σ ρ) {post} (sil : Silent post) (c : Conn σ ρ) (cl : Client) (hc : c.client = followedBy cl post)
    (q : Quiet cl) (hh : c.req.wasHijacked = false) (p' : Parser.PState) (rest)
    (hf : Parser.feed E.F c.parser (segs cl) = (p', .pending, rest)) :
    ∃ ans left more, Came E c [.error p'.req closeError ans left] more (if ans.isSome then .readFailed else .panicked) ∧
      Told E c.router p'.req closeError (ans, left) ∧ (left.hijacked = false → more = []) := by
  have hhij : p'.req.wasHijacked = false := by
    have := (Parser.feed_rest E.F (segs cl) c.parser).rest
    rw [hf] at this
    simp only [Parser.restOf, Prod.mk.injEq] at this
    rw [this.2.2.2.2.1]; exact hh
  have h := serve_pending E post cl.size c cl p' rest (Nat.le_refl _) hc q hf
  rw [serve_step E { c with parser := p', client := { cl with pending := [], conn := post } }] at h
  obtain ⟨d, e, r1, r2⟩ := silent_read sil { cl with pending := [], conn := post } rfl rfl
  rcases hr : ({ cl with pending := [], conn := post } : Client).read with ⟨⟨d', e'⟩, cl2⟩
  rw [hr] at r1 r2
  simp only [Prod.mk.injEq] at r1
  obtain ⟨rfl, rfl⟩ := r1
  unfold step at h
  simp only [hr] at h
  obtain ⟨c', ans, left, more, k1, k2, k3, k4, k5⟩ := closing_eq E { c with parser := p', client := cl2 } .readFailed
  rw [k1] at h
  refine ⟨ans, left, more, ⟨?_, ?_, ?_⟩, ⟨_, hhij, k5⟩, k4⟩
  · rw [h]; rfl
  · rw [h]; exact k2
  · rw [h]; simp only [go]; rw [k3, hc]
    show cl2.written ++ more = _
    rw [show cl2.written = cl.written from r2]
    rfl

/-- A head which is rejected: the router is told, its response is written, and that is all. -/
theorem serve_rejected (E : Setup σ ρ) {post} (c : Conn σ ρ) (cl : Client) (hc : c.client = followedBy cl post)
    (q : Quiet cl) (p' : Parser.PState) (rest) (e : Status.HTTPError)
    (hf : Parser.feed E.F c.parser (segs cl) = (p', .error e, rest)) :
    ∃ cl', cl'.written = c.client.written ∧ cl'.wscript = c.client.wscript ∧ ∀ act,
      act = (E.router.onError c.router p'.req (.http e)).1.run E.P E.maxAlloc
        { body := c.body, client := cl', hijacked := p'.req.wasHijacked } →
      (act.1 = none → ∃ more, Came E c [.error p'.req (.http e) none act.2] more .panicked ∧
        (act.2.hijacked = false → more = [])) ∧
      ∀ f req, act.1 = some (f, req) →
        ∃ more, (act.2.hijacked = false → more = [] ∧ act.2.client.wscript = c.client.wscript) ∧
        ∀ w, w = Serializer.write E.F c.ser req.Proto req f { wscript := act.2.client.wscript } →
          Came E c [.error p'.req (.http e) (some (f, req)) act.2] (more ++ w.client.written)
            (if w.out = .panic then .panicked else .rejected) := by
  obtain ⟨cl', h1, h2, h3, h4, h5, h6⟩ := serve_feed E post cl.size c cl p' (.error e) rest (Nat.le_refl _) hc q hf nofun
  have hwr : (followedBy cl' post).written = c.client.written := by rw [hc]; exact h4
  have hws : (followedBy cl' post).wscript = c.client.wscript := by rw [hc]; exact h5
  refine ⟨followedBy cl' post, hwr, hws, ?_⟩
  rintro ⟨o, w⟩ hact
  generalize hc1 : ({ c with parser := p', client := followedBy cl' post } : Conn σ ρ) = c1 at h6
  have e1 : c1.req = p'.req := by rw [← hc1]
  have e2 : c1.router = c.router := by rw [← hc1]
  have e3 : c1.world = { body := c.body, client := followedBy cl' post, hijacked := p'.req.wasHijacked } := by rw [← hc1]; rfl
  have e4 : c1.visits = c.visits := by rw [← hc1]
  have e5 : c1.ser = c.ser := by rw [← hc1]
  simp only [finish, rejecting] at h6
  rw [onError_eq, e1, e2, e3, ← hact] at h6
  have hpre := run_prefix E.P E.maxAlloc (E.router.onError c.router p'.req (.http e)).1
    { body := c.body, client := followedBy cl' post, hijacked := p'.req.wasHijacked }
  have hout := run_out E.P E.maxAlloc (E.router.onError c.router p'.req (.http e)).1
    { body := c.body, client := followedBy cl' post, hijacked := p'.req.wasHijacked }
  rw [← hact] at hpre hout
  obtain ⟨more, hmore⟩ := hpre
  dsimp only at hmore hout
  have hm : w.hijacked = false → more = [] ∧ w.client.wscript = c.client.wscript := by
    intro hh
    have := (hout hh)
    refine ⟨?_, this.2.trans hws⟩
    have := this.1
    rw [← hmore] at this
    simpa using this
  refine ⟨?_, ?_⟩
  · intro ho
    dsimp only at ho
    subst ho
    refine ⟨more, ⟨?_, ?_, ?_⟩, fun hh => (hm hh).1⟩
    · rw [h6]; rfl
    · rw [h6]; simp [go, Conn.after, e4]
    · rw [h6]; simp only [go, Conn.after, Option.map]; rw [← hmore, hwr]
  · intro f req ho
    dsimp only at ho
    subst ho
    refine ⟨more, hm, ?_⟩
    intro W hW
    dsimp only [Option.map, Option.getD] at h6
    have hwrite : Serializer.write E.F c.ser req.Proto { req with wasHijacked := w.hijacked } f w.client =
        { W with client := Serializer.onto w.client W.client } := by
      rw [write_hijacked, Serializer.write_eq_onto, hW]
    have h6 : serve E c = ({ (c1.after (E.router.onError c.router p'.req (.http e)).2 req w
        (.error p'.req (.http e) (some (f, req)) w)) with ser := W.ser, client := Serializer.onto w.client W.client },
        some (match W.out with | .panic => .panicked | .done _ => .rejected)) := by
      rw [h6]
      simp only [go]
      rw [show (c1.after (E.router.onError c.router p'.req (.http e)).2 req w
        (.error p'.req (.http e) (some (f, req)) w)).ser = c.ser from e5]
      rw [show (c1.after (E.router.onError c.router p'.req (.http e)).2 req w
        (.error p'.req (.http e) (some (f, req)) w)).req = { req with wasHijacked := w.hijacked } from rfl]
      rw [show (c1.after (E.router.onError c.router p'.req (.http e)).2 req w
        (.error p'.req (.http e) (some (f, req)) w)).client = w.client from rfl]
      rw [show ({ req with wasHijacked := w.hijacked } : Request).Proto = req.Proto from rfl, hwrite]
      cases W.out <;> rfl
    refine ⟨?_, ?_, ?_⟩
    · rw [h6]; cases W.out <;> rfl
    · rw [h6]; simp [Conn.after, e4]
    · rw [h6]
      show w.client.written ++ W.client.written = _
      rw [← hmore, hwr]; simp

end Indigo.Serve
