/-
Requests from the network have a path.
-/
import Verif.Proofs.ParserInv
import Verif.Model.Serve
import Verif.Proofs.Uri

namespace Indigo.Parser

/-- The path of the request is known, or still to be read. -/
def PathKnown (l : Label) (p : PState) : Prop := l = .method ∨ l = .path ∨ p.req.Path ≠ []

theorem decode_ne {s d : Bytes} (h : UriDecode.Decode s = some d) (hs : s ≠ []) : d ≠ [] := by
  rw [UriDecode.Decode_eq] at h
  unfold UriDecode.pct at h
  split at h
  · exact absurd rfl hs
  all_goals
    repeat' split at h
    all_goals first
      | cases h; done
      | (rw [Option.map_eq_some_iff] at h; obtain ⟨_, -, rfl⟩ := h; simp)

private theorem storeHeader_path (F : Fold) (p : PState) (k v : Bytes) : (storeHeader F p k v).req.Path = p.req.Path := by
  unfold storeHeader
  dsimp only
  repeat' split
  all_goals rfl

private theorem step_path (F : Fold) {l : Label} {p : PState} {d : Bytes} (hI : PathKnown l p) (hl : l = .method → p.state = .method) :
    (∀ l' p' d', step F l p d = .goto l' p' d' → PathKnown l' p' ∧ l' ≠ .method) ∧
    (∀ p', step F l p d = .ret p' .pending → PathKnown p'.state p') ∧
    (∀ p' x, step F l p d = .ret p' (.completed x) → p'.req.Path ≠ [] ∧ p'.state = .method) := by
  cases l <;> simp only [step]
  · have hm := hl rfl
    unfold stepMethod finishMethod
    refine ⟨fun l' p' d' h => ?_, fun p' h => ?_, fun p' x h => ?_⟩
    · try dsimp only at h
      repeat' split at h
      all_goals first | (cases h; done) | (cases h; exact ⟨.inr (.inl rfl), by simp⟩)
    · try dsimp only at h
      repeat' split at h
      all_goals first | (cases h; done) | (cases h; exact .inl hm)
    · try dsimp only at h
      repeat' split at h
      all_goals (cases h; done)
  · unfold stepPath
    have hrl : ∀ r s r', requestLine r s = (r', none) → r'.Path ≠ [] := by
      intro r s r' h
      unfold requestLine at h
      try dsimp only at h
      repeat' split at h
      all_goals first
        | (cases h; done)
        | (cases h; refine decode_ne (by assumption) ?_; intro e; simp_all)
    have hout : ∀ r s r' o, requestLine r s = (r', some o) → o ≠ .pending ∧ ∀ x, o ≠ .completed x := by
      intro r s r' o h
      unfold requestLine at h
      try dsimp only at h
      repeat' split at h
      all_goals first | (cases h; done) | (cases h; exact ⟨by simp, by simp⟩)
    refine ⟨fun l' p' d' h => ?_, fun p' h => ?_, fun p' x h => ?_⟩
    · split at h
      · split at h <;> cases h
      · split at h
        · cases h
        · unfold finishPath at h
          try dsimp only at h
          split at h
          · cases h
          · rename_i heq
            cases h
            exact ⟨.inr (.inr (hrl _ _ _ heq)), by simp⟩
    · split at h
      · split at h
        · cases h
        · cases h; exact .inr (.inl rfl)
      · split at h
        · cases h
        · unfold finishPath at h
          try dsimp only at h
          split at h
          · rename_i heq
            cases h
            exact absurd rfl (hout _ _ _ _ heq).1
          · cases h
    · split at h
      · split at h <;> cases h
      · split at h
        · cases h
        · unfold finishPath at h
          try dsimp only at h
          split at h
          · rename_i heq
            cases h
            exact absurd rfl ((hout _ _ _ _ heq).2 x)
          · cases h
  all_goals
    have hp : p.req.Path ≠ [] := by
      rcases hI with h | h | h
      · cases h
      · cases h
      · exact h
  · unfold stepHeaderKey
    refine ⟨fun l' p' d' h => ?_, fun p' h => ?_, fun p' x h => ?_⟩
    · try dsimp only at h
      repeat' split at h
      all_goals first | (cases h; done) | (cases h; exact ⟨.inr (.inr hp), by first | (unfold valueLabel; split <;> simp; done) | simp⟩)
    · try dsimp only at h
      repeat' split at h
      all_goals first | (cases h; done) | (cases h; exact .inr (.inr hp))
    · try dsimp only at h
      repeat' split at h
      all_goals first | (cases h; done) | (cases h; exact ⟨hp, rfl⟩)
  · unfold stepContentLength
    refine ⟨fun l' p' d' h => ?_, fun p' h => ?_, fun p' x h => ?_⟩
    · try dsimp only at h
      repeat' split at h
      all_goals first | (cases h; done) | (cases h; exact ⟨.inr (.inr hp), by simp⟩)
    · try dsimp only at h
      repeat' split at h
      all_goals first | (cases h; done) | (cases h; exact .inr (.inr hp))
    · try dsimp only at h
      repeat' split at h
      all_goals first | (cases h; done) | (cases h; exact ⟨hp, rfl⟩)
  · unfold stepContentLengthCR
    refine ⟨fun l' p' d' h => ?_, fun p' h => ?_, fun p' x h => ?_⟩
    · try dsimp only at h
      repeat' split at h
      all_goals first | (cases h; done) | (cases h; exact ⟨.inr (.inr hp), by simp⟩)
    · try dsimp only at h
      repeat' split at h
      all_goals first | (cases h; done) | (cases h; exact .inr (.inr hp))
    · try dsimp only at h
      repeat' split at h
      all_goals first | (cases h; done) | (cases h; exact ⟨hp, rfl⟩)
  · unfold stepHeaderValue
    refine ⟨fun l' p' d' h => ?_, fun p' h => ?_, fun p' x h => ?_⟩
    · try dsimp only at h
      repeat' split at h
      all_goals first | (cases h; done) | (cases h; exact ⟨.inr (.inr (by rw [storeHeader_path]; exact hp)), by simp⟩)
    · try dsimp only at h
      repeat' split at h
      all_goals first | (cases h; done) | (cases h; exact .inr (.inr hp))
    · try dsimp only at h
      repeat' split at h
      all_goals first | (cases h; done) | (cases h; exact ⟨hp, rfl⟩)
  · unfold stepCRLFCR
    refine ⟨fun l' p' d' h => ?_, fun p' h => ?_, fun p' x h => ?_⟩
    · try dsimp only at h
      repeat' split at h
      all_goals first | (cases h; done) | (cases h; exact ⟨.inr (.inr hp), by simp⟩)
    · try dsimp only at h
      repeat' split at h
      all_goals first | (cases h; done) | (cases h; exact .inr (.inr hp))
    · try dsimp only at h
      repeat' split at h
      all_goals first | (cases h; done) | (cases h; exact ⟨hp, rfl⟩)

/-- Over a whole segment. -/
theorem parse_path (F : Fold) (p : PState) (d : Bytes) (hI : PathKnown p.state p) :
    (∀ p', parse F p d = (p', .pending) → PathKnown p'.state p') ∧
    (∀ p' x, parse F p d = (p', .completed x) → p'.req.Path ≠ [] ∧ p'.state = .method) := by
  rw [parse_eq_exec]
  have key : ∀ l p d, PathKnown l p → (l = .method → p.state = .method) →
      (∀ p', exec F l p d = (p', .pending) → PathKnown p'.state p') ∧
      (∀ p' x, exec F l p d = (p', .completed x) → p'.req.Path ≠ [] ∧ p'.state = .method) := by
    intro l p d
    apply exec_induct F (motive := fun l p d => PathKnown l p → (l = .method → p.state = .method) →
      (∀ p', exec F l p d = (p', .pending) → PathKnown p'.state p') ∧
      (∀ p' x, exec F l p d = (p', .completed x) → p'.req.Path ≠ [] ∧ p'.state = .method))
    intro l p d ih hI hl
    obtain ⟨h1, h2, h3⟩ := step_path F (d := d) hI hl
    cases hs : step F l p d with
    | ret p' r =>
      rw [exec_ret hs]
      refine ⟨fun q h => ?_, fun q x h => ?_⟩
      · cases h; exact h2 _ hs
      · cases h; exact h3 _ _ hs
    | goto l' p' d' =>
      rw [exec_goto hs]
      obtain ⟨h4, h5⟩ := h1 _ _ _ hs
      exact ih l' p' d' hs h4 (fun h => absurd h h5)
  exact key _ p d hI (fun h => h)

end Indigo.Parser

namespace Indigo.Serve
open Parser (PathKnown)

variable {σ ρ : Type} {E : Setup σ ρ}

private theorem onRequest_state (c : Conn σ ρ) : (onRequest E c).2.parser.state = c.parser.state := by
  unfold onRequest; dsimp only; split <;> rfl

private theorem onError_state (c : Conn σ ρ) (e : GoErr) : (onError E c e).2.parser.state = c.parser.state := by
  unfold onError; dsimp only; split <;> rfl

private theorem closing_state (c : Conn σ ρ) (why : Ended) : (closing E c why).1.parser.state = c.parser.state := by
  unfold closing
  have := onError_state (E := E) c (.http Status.ErrCloseConnection)
  split <;> (rename_i h; rw [h] at this; exact this)

private theorem clearing_state (c : Conn σ ρ) : (clearing E c).1.parser.state = c.parser.state := by
  unfold clearing
  split
  · exact closing_state _ _
  · rfl

private theorem respond_state (c : Conn σ ρ) (v : Proto) (resp : Fields) :
    (respond E v c resp).1.parser.state = c.parser.state := by
  unfold respond
  split
  · rfl
  · dsimp only
    split
    · rfl
    · exact closing_state _ _
    · exact clearing_state _

private theorem preResponse_parser (c : Conn σ ρ) : (preResponse E c).2.parser = c.parser ∧
    (preResponse E c).2.router = c.router ∧ (preResponse E c).2.visits = c.visits := by
  unfold preResponse; split <;> exact ⟨rfl, rfl, rfl⟩

/-- Something true of the state of the router and of its calls that calls of the router keep holds when the connection
ends. The router is asked for requests with a path only. -/
theorem serve_keeps (G : ρ → List (Visit σ) → Prop)
    (hreq : ∀ c, c.req.Path ≠ [] → G c.router c.visits → G (onRequest E c).2.router (onRequest E c).2.visits)
    (herr : ∀ c e, G c.router c.visits → G (onError E c e).2.router (onError E c e).2.visits)
    (c : Conn σ ρ) (hp : PathKnown c.parser.state c.parser) (hc : G c.router c.visits) :
    G (serve E c).1.router (serve E c).1.visits := by
  have hclosing : ∀ (c : Conn σ ρ) why, G c.router c.visits → G (closing E c why).1.router (closing E c why).1.visits := by
    intro c why h
    unfold closing
    have := herr c (.http Status.ErrCloseConnection) h
    split <;> (rename_i heq; rw [heq] at this; exact this)
  have hclearing : ∀ (c : Conn σ ρ), G c.router c.visits → G (clearing E c).1.router (clearing E c).1.visits := by
    intro c h
    unfold clearing
    split
    · exact hclosing _ _ h
    · exact h
  have hrespond : ∀ (c : Conn σ ρ) v resp, G c.router c.visits → G (respond E v c resp).1.router (respond E v c resp).1.visits := by
    intro c v resp h
    unfold respond
    split
    · exact h
    · dsimp only
      split
      · exact h
      · exact hclosing _ _ h
      · exact hclearing _ h
  have hstep : ∀ (c : Conn σ ρ), PathKnown c.parser.state c.parser → G c.router c.visits →
      G (step E c).1.router (step E c).1.visits ∧
      ((step E c).2 = none → PathKnown (step E c).1.parser.state (step E c).1.parser) := by
    intro c hp h
    unfold step
    split
    · rename_i client _
      refine ⟨hclosing _ _ h, ?_⟩
      intro hn
      unfold closing at hn
      split at hn <;> cases hn
    · rename_i data client hread
      obtain ⟨hpend, hdone⟩ := Parser.parse_path E.F c.parser data hp
      split
      · rename_i parser hparse
        exact ⟨h, fun _ => hpend _ hparse⟩
      · rename_i parser extra hparse
        obtain ⟨hne, hst⟩ := hdone _ _ hparse
        unfold headersCompleted
        have hp := preResponse_parser (E := E) { c with parser, client }
        generalize preResponse E { c with parser, client } = pr at hp ⊢
        obtain ⟨v, c'⟩ := pr
        obtain ⟨hp1, hp2, hp3⟩ := hp
        dsimp only at hp1 hp2 hp3 ⊢
        have h1 := hreq { c' with client := c'.client.unread extra, body := c'.body.initFor c'.req }
          (by show c'.parser.req.Path ≠ []; rw [hp1]; exact hne) (by dsimp only; rw [hp2, hp3]; exact h)
        have h2 := onRequest_state (E := E) { c' with client := c'.client.unread extra, body := c'.body.initFor c'.req }
        have h3 : c'.parser.state = .method := by rw [hp1]; exact hst
        split
        · rename_i heq; rw [heq] at h1; exact ⟨h1, by simp⟩
        · rename_i heq
          rw [heq] at h1 h2
          refine ⟨hrespond _ _ _ h1, fun _ => .inl ?_⟩
          rw [respond_state, h2]
          exact h3
      · rename_i parser e hparse
        unfold rejecting
        have h1 := herr { c with parser, client } (.http e) h
        split
        · rename_i heq; rw [heq] at h1; exact ⟨h1, by simp⟩
        · rename_i heq; rw [heq] at h1; exact ⟨h1, by simp⟩
      · exact ⟨h, by simp⟩
  have hloop : ∀ fuel (c : Conn σ ρ), PathKnown c.parser.state c.parser → G c.router c.visits →
      G (serveLoop E fuel c).1.router (serveLoop E fuel c).1.visits := by
    intro fuel
    induction fuel with
    | zero => intro c _ h; exact h
    | succ n ih =>
      intro c hp h
      unfold serveLoop
      obtain ⟨h1, h2⟩ := hstep c hp h
      split
      · rename_i heq; rw [heq] at h1; exact h1
      · rename_i heq; rw [heq] at h1 h2; exact ih _ (h2 rfl) h1
  exact hloop _ c hp hc

end Indigo.Serve
