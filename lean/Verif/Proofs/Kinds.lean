/-
Every stream is a sequence of well-formed requests and something of one of the kinds.
-/
import Verif.Spec.Kinds
import Verif.Proofs.LongLine
import Verif.Proofs.Serve5
import Verif.Proofs.QueryTotal
import Verif.Proofs.Cut

namespace Indigo.Parser
open Indigo.Spec

theorem render_nonempty (h : Head) : 0 < h.render.length := by
  have : h.render ≠ [] := by unfold Head.render; simp
  exact List.length_pos_iff.2 this

theorem stream_kinds (F : Fold) (L : Limits) (T B : Nat) (n : Nat) : ∀ s : Bytes, s.length ≤ n →
    ∃ (ss : List Sending) (tail : Bytes) (kind : Kind), s = ss.flatMap Sending.bytes ++ tail ∧ (∀ x ∈ ss, Sendable F L T B x) ∧ Kind.Of F L T B tail kind := by
  induction n with
  | zero =>
    intro s hs
    have : s = [] := by cases s <;> simp at hs ⊢
    subst this
    refine ⟨[], [], .unfinished, rfl, by simp, ⟨by simp, by simp, by simp⟩, ?_, .method [] (by simp) (by simp)⟩
    intro m line rest e; simp at e
  | succ n ih =>
    intro s hs
    by_cases fits : RequestLineFits L.line s
    case neg =>
      by_cases long : 7 ≤ L.line ∧ LongLine L.line s
      · exact ⟨[], s, .tooLong, rfl, by simp, long⟩
      · exact ⟨[], s, .outside, rfl, by simp, .line s fits long⟩
    by_cases clean : CleanStream s
    case neg => exact ⟨[], s, .outside, rfl, by simp, .names s fits clean⟩
    rcases stream_class fits clean with ⟨h, extra, rfl, ok, cln, nb, fit, esc⟩ | ⟨e, he⟩ | hc | ho
    · obtain ⟨path, hpath⟩ : ∃ path, Unescapes h.target path := by
        cases hd : UriDecode.pct h.target with
        | none => exact absurd esc ((Query.decode_none_iff h.target).1 (by rw [UriDecode.Decode_eq]; exact hd))
        | some path => exact ⟨path, UriDecode.unescapes_of_pct hd⟩
      have good : GoodHead L h path := ⟨ok, cln, nb, fit, hpath⟩
      have hpos := render_nonempty h
      have step : ∀ body coded after, extra = coded ++ after → Framed F T ⟨h, path, body, coded⟩ → body.length ≤ B →
          ∃ (ss : List Sending) (tail : Bytes) (kind : Kind), h.render ++ extra = ss.flatMap Sending.bytes ++ tail ∧ (∀ x ∈ ss, Sendable F L T B x) ∧
            Kind.Of F L T B tail kind := by
        rintro body coded after rfl hfr hB
        obtain ⟨ss, tail, kind, h1, h2, h3⟩ := ih after (by simp at hs; omega)
        refine ⟨⟨h, path, body, coded⟩ :: ss, tail, kind, ?_, ?_, h3⟩
        · rw [h1]; simp [Sending.bytes]
        · intro x hx
          rcases List.mem_cons.1 hx with rfl | hx
          · exact ⟨ok, cln, nb, fit, hpath, hfr, hB⟩
          · exact h2 x hx
      cases hch : h.isChunked F T with
      | true =>
        by_cases hx : ∃ chunks coded after, extra = coded ++ after ∧ ChunkedCoding chunks coded ∧ chunks.flatten.length ≤ B
        · obtain ⟨chunks, coded, after, e1, e2, e3⟩ := hx
          exact step chunks.flatten coded after e1 (.chunked chunks hch e2 rfl) e3
        by_cases hy : ∃ chunks missing, ChunkedCoding chunks (extra ++ missing) ∧ chunks.flatten.length ≤ B
        · obtain ⟨chunks, missing, e1, e2⟩ := hy
          have hm : missing ≠ [] := by
            rintro rfl
            exact hx ⟨chunks, extra, [], by simp, by simpa using e1, e2⟩
          exact ⟨[], h.render ++ extra, .last h path extra, rfl, by simp, rfl, good, .chunked chunks missing hch e1 hm e2⟩
        refine ⟨[], h.render ++ extra, .garbled h path extra, rfl, by simp, rfl, good, hch, ?_, ?_⟩
        · intro chunks coded after e1 e2
          exact Nat.lt_of_not_le fun hle => hx ⟨chunks, coded, after, e1, e2, hle⟩
        · intro chunks missing e1
          exact Nat.lt_of_not_le fun hle => hy ⟨chunks, missing, e1, hle⟩
      | false =>
        by_cases hB : h.announced ≤ B
        case neg => exact ⟨[], h.render ++ extra, .last h path extra, rfl, by simp, rfl, good, .large hch (by omega)⟩
        by_cases hlen : extra.length < h.announced
        · exact ⟨[], h.render ++ extra, .last h path extra, rfl, by simp, rfl, good, .short hch hlen⟩
        have htake : (extra.take (h.announced)).length = h.announced := by
          rw [List.length_take]; omega
        exact step (extra.take (h.announced)) (extra.take (h.announced)) (extra.drop (h.announced))
          (List.take_append_drop _ _).symm (.sized hch rfl htake.symm) (by rw [htake]; exact hB)
    · exact ⟨[], s, .faulty e, rfl, by simp, fits, clean, he⟩
    · exact ⟨[], s, .crashing, rfl, by simp, fits, clean, hc⟩
    · exact ⟨[], s, .unfinished, rfl, by simp, fits, clean, ho⟩

end Indigo.Parser

namespace Indigo.Serve
open Indigo.Spec Indigo.Body
variable {σ ρ : Type}

/-! ### The calls of the router, and what is written, only grow -/

/-- `c'` is `c` with more calls and more written. -/
def Grown (c c' : Conn σ ρ) : Prop := c.visits <+: c'.visits ∧ c.client.written <+: c'.client.written

theorem Grown.refl (c : Conn σ ρ) : Grown c c := ⟨List.prefix_refl _, List.prefix_refl _⟩

theorem Grown.trans {a b c : Conn σ ρ} (h : Grown a b) (h' : Grown b c) : Grown a c :=
  ⟨h.1.trans h'.1, h.2.trans h'.2⟩

theorem onError_grown (E : Setup σ ρ) (c : Conn σ ρ) (e : GoErr) : Grown c (onError E c e).2 := by
  rw [onError_eq]
  exact ⟨List.prefix_append _ _, run_prefix E.P E.maxAlloc _ c.world⟩

theorem onRequest_grown (E : Setup σ ρ) (c : Conn σ ρ) : Grown c (onRequest E c).2 := by
  rw [onRequest_eq]
  exact ⟨List.prefix_append _ _, run_prefix E.P E.maxAlloc _ c.world⟩

theorem closing_grown (E : Setup σ ρ) (c : Conn σ ρ) (why : Ended) : Grown c (closing E c why).1 := by
  have := onError_grown E c (.http Status.ErrCloseConnection)
  unfold closing
  generalize onError E c (.http Status.ErrCloseConnection) = q at this ⊢
  obtain ⟨q1, q2⟩ := q
  cases q1 <;> exact this

theorem write_grown (F : Fold) (d : Serializer) (p : Proto) (req : Request) (f : Fields) (c : Client) :
    c.written <+: (d.write F p req f c).client.written := by
  rw [Serializer.write_eq_onto]
  exact List.prefix_append _ _

theorem clearing_grown (E : Setup σ ρ) (c : Conn σ ρ) : Grown c (clearing E c).1 := by
  have hd : (Body.discard E.P (Body.fuel (c.body, c.client)) (c.body, c.client)).2.2.written = c.client.written :=
    discard_inv E.P (fun t => t.2.written = c.client.written) (fun t ht => (retrieve_out E.P t).1.trans ht) _ _ rfl
  unfold clearing
  generalize Body.discard E.P (Body.fuel (c.body, c.client)) (c.body, c.client) = q at hd ⊢
  obtain ⟨o, b, cl⟩ := q
  dsimp only at hd
  cases o with
  | none => exact ⟨List.prefix_refl _, by dsimp only; rw [hd]; exact List.prefix_refl _⟩
  | some e =>
    refine Grown.trans (b := { c with body := b, client := cl }) ⟨List.prefix_refl _, ?_⟩ (closing_grown E _ _)
    dsimp only; rw [hd]; exact List.prefix_refl _

theorem respond_grown (E : Setup σ ρ) (v : Proto) (c : Conn σ ρ) (f : Fields) : Grown c (respond E v c f).1 := by
  unfold respond
  split
  · exact .refl c
  · have hw := write_grown E.F c.ser v c.req f c.client
    dsimp only
    generalize c.ser.write E.F v c.req f c.client = w at hw ⊢
    have h1 : Grown c { c with ser := w.ser, client := w.client } := ⟨List.prefix_refl _, hw⟩
    split
    · exact h1
    · exact h1.trans (closing_grown E _ _)
    · exact h1.trans (clearing_grown E _)

theorem headersCompleted_grown (E : Setup σ ρ) (c : Conn σ ρ) (extra : Bytes) : Grown c (headersCompleted E c extra).1 := by
  unfold headersCompleted
  have h1 : Grown c (preResponse E c).2 := by
    unfold preResponse; split <;> exact .refl c
  generalize preResponse E c = pr at h1 ⊢
  obtain ⟨p, c₁⟩ := pr
  dsimp only at h1 ⊢
  have h2 : Grown c { c₁ with client := c₁.client.unread extra, body := c₁.body.initFor c₁.req } := h1
  have h3 := onRequest_grown E { c₁ with client := c₁.client.unread extra, body := c₁.body.initFor c₁.req }
  generalize onRequest E { c₁ with client := c₁.client.unread extra, body := c₁.body.initFor c₁.req } = q at h3 ⊢
  obtain ⟨q1, q2⟩ := q
  cases q1 with
  | none => exact h2.trans h3
  | some resp => exact (h2.trans h3).trans (respond_grown E _ _ _)

theorem step_grown (E : Setup σ ρ) (c : Conn σ ρ) : Grown c (step E c).1 := by
  unfold step
  rcases hr : c.client.read with ⟨⟨d, e⟩, cl⟩
  have hw := (read_writes hr).1
  cases e with
  | some e =>
    refine Grown.trans (b := { c with client := cl }) ⟨List.prefix_refl _, ?_⟩ (closing_grown E _ _)
    dsimp only; rw [hw]; exact List.prefix_refl _
  | none =>
    dsimp only
    have h1 : ∀ p, Grown c { c with parser := p, client := cl } := by
      intro p; exact ⟨List.prefix_refl _, by dsimp only; rw [hw]; exact List.prefix_refl _⟩
    generalize Parser.parse E.F c.parser d = q
    obtain ⟨p, r⟩ := q
    cases r with
    | pending => exact h1 p
    | panic => exact h1 p
    | completed ex => exact (h1 p).trans (headersCompleted_grown E _ _)
    | error e =>
      refine (h1 p).trans ?_
      unfold rejecting
      dsimp only
      have h2 := onError_grown E { c with parser := p, client := cl } (.http e)
      generalize onError E { c with parser := p, client := cl } (.http e) = q at h2 ⊢
      obtain ⟨q1, q2⟩ := q
      cases q1 with
      | none => exact h2
      | some resp => exact h2.trans ⟨List.prefix_refl _, write_grown E.F _ _ _ _ _⟩

theorem serve_grown (E : Setup σ ρ) (c : Conn σ ρ) : Grown c (serve E c).1 := by
  unfold serve
  generalize c.client.size + 1 = n
  induction n generalizing c with
  | zero => exact .refl c
  | succ n ih =>
    have := step_grown E c
    unfold serveLoop
    generalize step E c = q at this ⊢
    obtain ⟨q1, q2⟩ := q
    cases q2 with
    | none => exact this.trans (ih q1)
    | some => exact this

/-- The router is called with a request which has a well-formed head, whatever comes after it, and its answer is written. -/
theorem serve_first (E : Setup σ ρ) {L : Limits} {T limit : Nat}
    {remote : Bytes} (post : List (Bytes × Option GoErr)) (h : Head) (path given : Bytes) (good : GoodHead L h path)
    (env : Environment) (c : Conn σ ρ) (cl : Client)
    (idle : Idle E L T limit remote env c) (hc : c.client = followedBy cl post) (q : Quiet cl) (stream : cl.stream = h.render ++ given) :
    ∃ vs frames why, Came E c vs frames why ∧
      FirstOf E T remote post h path given env c.router c.ser c.upgradePreResp c.client.wscript vs frames why := by
  rcases serve_answered E post h path given good env c cl idle hc q stream with ⟨vs, frames, why, h1, h2⟩ | ⟨c3, seen, world, f, req, left, W, hw, ho, hs⟩
  · exact ⟨vs, frames, why, h1, .last h2⟩
  obtain ⟨why, hwhy⟩ := serve_ends E c
  have grown : Grown c3 (serve E c).1 := by
    rw [hs]
    have h1 := clearing_grown E c3
    generalize clearing E c3 = k at h1 ⊢
    obtain ⟨k1, k2⟩ := k
    cases k2 with
    | some => exact h1
    | none => exact h1.trans (serve_grown E k1)
  obtain ⟨⟨vs, hv⟩, frames, hf⟩ := grown
  rw [hw.visits] at hv
  rw [hw.written] at hf
  exact ⟨_, _, why, ⟨hwhy, by rw [← hv]; simp; rfl, by rw [← hf]; simp; rfl⟩, .more hw.announced hw.answers hw.kept hw.write ho⟩

end Indigo.Serve
