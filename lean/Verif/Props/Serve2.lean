/-
C02, C32, C69, C70: malformed and unfinished heads on a connection.
-/
import Verif.Props.Serve
import Verif.Proofs.FaultRead
import Verif.Proofs.LongLine

namespace Indigo.Props
open Indigo.Spec Indigo.Serve Indigo.Body
variable {σ ρ : Type}

/-- **C69.** A fault of a head is reported with the error which belongs to it (`HeadFault` is the list of faults, in the
order in which they count), however the head is cut into segments. -/
theorem C69_fault_reported (F : Fold) (p : Parser.PState) (hp : Parser.Ready p) (segs : List Bytes) (e : Status.HTTPError)
    (fits : RequestLineFits p.startLine.max segs.flatten) (clean : CleanStream segs.flatten)
    (fault : HeadFault (Parser.limits p) segs.flatten e) :
    ∃ p' rest, Parser.feed F p segs = (p', .error e, rest) :=
  Parser.feed_fault F p hp segs fits clean fault

/-- **C69.** The list of faults is complete: a complete head is a well-formed head within the limits, or has a fault, and
not both. -/
theorem C69_acceptable_or_fault (L : Limits) (s : Bytes) (complete : CompleteHead L s) :
    (Acceptable L s ∨ ∃ e, HeadFault L s e) ∧ ∀ e, HeadFault L s e → ¬ Acceptable L s := by
  refine ⟨Parser.complete_or_fault complete, ?_⟩
  rintro e he ⟨h, extra, rfl, ok, clean, nb, fits, esc⟩
  let p := Parser.new { maxNumber := L.number, maxValueLength := L.value, maxEncodingTokens := 0 } L.line L.names L.values
  have hp : Parser.Ready p := Parser.ready_new _ _ _ _
  obtain ⟨path, hpath⟩ := Parser.pct_of_escapable esc
  have hd : UriDecode.Decode h.target = some path := by rw [UriDecode.Decode_eq]; exact hpath
  have h1 := Parser.head_fault Fold.ascii hp (s := h.render ++ extra) (e := e) he
  have hcr : ∀ f ∈ h.fields, 13 ∉ f.name := fun f hf => (clean f hf).1
  rw [Parser.exec_head Fold.ascii hp ok hd (fun f hf => (Parser.fieldOK_iff (hcr f hf)).2 (ok.fields f hf))
    (by have := fits.line; rw [← Parser.fullLine_length] at this; show _ ≤ L.line; omega)
    ((Parser.fits_iff Fold.ascii hp clean path).2 ⟨fits.names, fits.values, fits.number, fits.value, nb⟩) extra] at h1
  cases h1

/-- **C02 (part).** A complete head which is not a well-formed head within the limits is rejected, however it is cut into
segments, with the error of its fault. Missing: see `CompleteHead`. -/
theorem C02_unacceptable_rejected_partial (F : Fold) (p : Parser.PState) (hp : Parser.Ready p) (segs : List Bytes)
    (complete : CompleteHead (Parser.limits p) segs.flatten) (bad : ¬ Acceptable (Parser.limits p) segs.flatten) :
    ∃ p' e rest, Parser.feed F p segs = (p', .error e, rest) ∧ HeadFault (Parser.limits p) segs.flatten e := by
  rcases Parser.complete_or_fault complete with h | ⟨e, he⟩
  · exact absurd h bad
  · obtain ⟨p', rest, h⟩ := Parser.feed_fault F p hp segs (Parser.complete_fits complete) (Parser.complete_clean complete) he
    exact ⟨p', e, rest, h, he⟩

/-- A head which the parser rejects. -/
theorem rejected_head (E : Setup σ ρ) {L T limit remote env0} {post} (c : Conn σ ρ) (cl1 : Client) (hc : c.client = followedBy cl1 post) (q : Quiet cl1)
    (idle : Idle E L T limit remote env0 c) (bad : Bytes) (hs : cl1.stream = bad) (p' : Parser.PState) (rest) (e : Status.HTTPError) {pre : Fields}
    (hf : Parser.feed E.F c.parser (segs cl1) = (p', .error e, rest)) :
    ∃ vs frames why, Came E c vs frames why ∧ Rejection E L T remote bad e env0 c.router c.ser pre c.client.wscript vs frames why := by
  have hhij : p'.req.wasHijacked = false := by
    have := (Parser.feed_rest E.F (segs cl1) c.parser).rest
    rw [hf] at this
    simp only [Parser.restOf, Prod.mk.injEq] at this
    rw [this.2.2.2.2.1]; exact idle.hijacked
  have hat : AtFault E.F L T bad remote e p'.req := by
    have hs' : (segs cl1).flatten = bad := by rw [segs_flatten, hs]
    have hr := (Parser.feed_rest E.F (segs cl1) c.parser).rest
    rw [hf] at hr
    simp only [Parser.restOf, Prod.mk.injEq] at hr
    have := Parser.feed_seen E.F c.parser idle.ready.state
      (by simp [Buf.OK, idle.ready.startLine.1, idle.ready.startLine.2]) (by simp [Buf.seg, idle.ready.startLine.1]) idle.named (segs cl1) hf
    rw [hs'] at this
    exact ⟨this.1, fun h m hm => Parser.seen_method (this.2 h) hm, by rw [hr.2.1]; exact idle.remote, by rw [hr.1]; exact idle.params, by rw [hr.2.2.1]; exact idle.ctx, fun h1 h2 h3 => by
      have hl : c.parser.startLine.max = L.line := by rw [← idle.limits]; rfl
      have := Parser.feed_read E.F c.parser idle.ready idle.cleared (segs cl1) (by rw [hs', hl]; exact h1) (by rw [hs']; exact h2)
        (by rw [hs', idle.limits]; exact h3)
      rw [hs', hf, idle.limits, idle.tokens] at this
      exact this, fun h7 hlong => by
      have hl : c.parser.startLine.max = L.line := by rw [← idle.limits]; rfl
      obtain ⟨-, k, hk⟩ := Parser.method_long E.F (segs cl1) c.parser idle.ready.state idle.ready.startLine.2 (by rw [hl]; exact h7)
        (by simp [idle.ready.startLine.1]) (by simp [idle.ready.startLine.1]) (by rw [idle.ready.startLine.1, hs', hl]; exact hlong)
      rw [hf] at hk
      have hk : p'.req = { c.parser.req with Method := k } := hk
      obtain ⟨a1, a2, a3, a4, a5, a6, a7⟩ := idle.cleared
      rw [hk]
      exact ⟨⟨a2, a3, a4, a5, a6, a7⟩, a1.1, a1.2.2⟩⟩
  have henv : p'.req.Env = env0 := by
    have hr := (Parser.feed_rest E.F (segs cl1) c.parser).rest
    rw [hf] at hr
    simp only [Parser.restOf, Prod.mk.injEq] at hr
    rw [hr.2.2.2.1]; exact idle.env
  obtain ⟨cl', k1, k2, k3⟩ := serve_rejected E c cl1 hc q p' rest e hf
  obtain ⟨m1, m2⟩ := k3 _ rfl
  rw [hhij] at m1 m2
  rcases ha : (E.router.onError c.router p'.req (.http e)).1.run E.P E.maxAlloc
    { body := c.body, client := cl', hijacked := false } with ⟨ans, left⟩
  rw [ha] at m1 m2
  cases ans with
  | none =>
    obtain ⟨more, a1, a2⟩ := m1 rfl
    refine ⟨_, more, _, a1, p'.req, none, left, more, hat, henv, ⟨_, rfl, ha⟩, rfl, fun hh => ⟨a2 hh, ?_⟩, rfl, rfl⟩
    have := run_out E.P E.maxAlloc (E.router.onError c.router p'.req (.http e)).1
      { body := c.body, client := cl', hijacked := false }
    rw [ha] at this
    exact ((this hh).2).trans k2
  | some v =>
    obtain ⟨f, req⟩ := v
    obtain ⟨more, a1, a2⟩ := m2 f req rfl
    refine ⟨_, _, _, a2 _ rfl, p'.req, some (f, req), left, more, hat, henv, ⟨_, rfl, ha⟩, rfl, a1, ?_⟩
    exact ⟨_, rfl, rfl, rfl⟩

/-- **C32 (part).** On a new connection, after any sequence of well-formed requests (for which see `C22_pipelining`) a
malformed or over-limit head: the router is told about the error of this fault, once, its response is written, and that
is all (`Rejection`). Missing: faults not in `HeadFault`, which are names with CR or LF in them and too long request
lines. -/
theorem C32_malformed_partial (E : Setup σ ρ) (dec : DecodesChunked E.P) (cfg : Config)
    (size : cfg.bodyMaxSize < 2 ^ 64) (enc : EncToken) (remote : Bytes) (st : ρ) (tame : Tame E st) (cl : Client) (quiet : Quiet cl)
    (post : List (Bytes × Option GoErr)) (ss : List Sending) (ok : ∀ s ∈ ss, SendableWith E.F cfg s)
    (bad : Bytes) (e : Status.HTTPError) (fits : RequestLineFits (headLimits cfg).line bad) (clean : CleanStream bad)
    (fault : HeadFault (headLimits cfg) bad e) (stream : cl.stream = ss.flatMap Sending.bytes ++ bad) :
    ∃ c why vs frames, serve E (newConn E.P cfg enc remote st (followedBy cl post)) = (c, some why) ∧
      c.visits = vs ∧ c.client.written = cl.written ++ frames ∧
      Conversation E cfg.maxEncodingTokens.toNat remote bad post (Rejection E (headLimits cfg) cfg.maxEncodingTokens.toNat remote bad e) { Encryption := enc } st
        (Serializer.new cfg.responseBuffSize (cfg.defaultHeaders.getD [])) Fields.new cl.wscript ss vs frames why := by
  obtain ⟨vs, frames, why, h1, h2⟩ := serve_conversation E dec (L := headLimits cfg) (limit := cfg.bodyMaxSize.toNat)
    (by unfold maxUint; omega) (remote := remote) bad post (Rejection E (headLimits cfg) cfg.maxEncodingTokens.toNat remote bad e)
    (by
      intro env c cl1 idle hc q hs
      have hs' : (segs cl1).flatten = bad := by rw [segs_flatten, hs]
      have hline : c.parser.startLine.max = (headLimits cfg).line := by rw [← idle.limits]; rfl
      obtain ⟨p', rest, hf⟩ := C69_fault_reported E.F c.parser idle.ready (segs cl1) e
        (by rw [hs', hline]; exact fits) (by rw [hs']; exact clean) (by rw [hs', idle.limits]; exact fault)
      exact rejected_head E c cl1 hc q idle bad hs p' rest e hf)
    ss { Encryption := enc } (newConn E.P cfg enc remote st (followedBy cl post)) cl tame
    (newConn_idle E cfg enc remote st _) rfl quiet ok stream
  exact ⟨_, why, vs, frames, by rw [← h1.why], by rw [h1.visits]; rfl, h1.written, h2⟩

/-- **C32, consequence.** The handler is not called for the malformed request: each call of the handler is for one of the
well-formed requests before it. -/
theorem C32_not_handled_partial (E : Setup σ ρ) (dec : DecodesChunked E.P) (cfg : Config)
    (size : cfg.bodyMaxSize < 2 ^ 64) (enc : EncToken) (remote : Bytes) (st : ρ) (tame : Tame E st) (cl : Client) (quiet : Quiet cl)
    (post : List (Bytes × Option GoErr)) (ss : List Sending) (ok : ∀ s ∈ ss, SendableWith E.F cfg s)
    (bad : Bytes) (e : Status.HTTPError) (fits : RequestLineFits (headLimits cfg).line bad) (clean : CleanStream bad)
    (fault : HeadFault (headLimits cfg) bad e) (stream : cl.stream = ss.flatMap Sending.bytes ++ bad)
    (i : Nat) (seen : Request) (world : BC σ) (a : Option (Fields × Request)) (left : Act.World σ)
    (call : (serve E (newConn E.P cfg enc remote st (followedBy cl post))).1.visits[i]? = some (.request seen world a left)) :
    ∃ s, ss[i]? = some s ∧
      Delivered E cfg.maxEncodingTokens.toNat remote post (if i = 0 then { Encryption := enc } else {}) s
        ((ss.drop (i + 1)).flatMap Sending.bytes ++ bad) seen world := by
  obtain ⟨c, why, vs, frames, h1, h2, _, h3⟩ :=
    C32_malformed_partial E dec cfg size enc remote st tame cl quiet post ss ok bad e fits clean fault stream
  rw [h1, h2] at call
  exact conversation_delivered (rejection_noRequests E _ _ remote bad e) h3 i seen world a left call

/-! ### C70: unfinished heads -/

theorem feed_append (F : Fold) (ds es : List Bytes) : ∀ (p p' : Parser.PState) r rest, Parser.feed F p ds = (p', r, rest) →
    r ≠ .pending → Parser.feed F p (ds ++ es) = (p', r, rest ++ es) := by
  induction ds with
  | nil => intro p p' r rest h hr; simp [Parser.feed] at h; exact absurd h.2.1.symm hr
  | cons d ds ih =>
    intro p p' r rest h hr
    simp only [List.cons_append, Parser.feed] at h ⊢
    rcases hp : Parser.parse F p d with ⟨p1, r1⟩
    rw [hp] at h
    cases r1 with
    | pending => exact ih p1 p' r rest h hr
    | completed ex => simp at h; obtain ⟨rfl, rfl, rfl⟩ := h; rfl
    | error e => simp at h; obtain ⟨rfl, rfl, rfl⟩ := h; rfl
    | panic => simp at h; obtain ⟨rfl, rfl, rfl⟩ := h; rfl

/-- **C70.** If a connection ends within a head, after any sequence of well-formed requests, then nothing is done about the
unfinished request: the router is told only that the connection is being closed, and nothing is written (unless an error
handler hijacks the connection and writes). The head is a proper prefix `part` of a well-formed head within the
limits. -/
theorem C70_unfinished_head (E : Setup σ ρ) (dec : DecodesChunked E.P) (cfg : Config)
    (size : cfg.bodyMaxSize < 2 ^ 64) (enc : EncToken) (remote : Bytes) (st : ρ) (tame : Tame E st) (cl : Client) (quiet : Quiet cl)
    (post : List (Bytes × Option GoErr)) (silent : Silent post) (ss : List Sending) (ok : ∀ s ∈ ss, SendableWith E.F cfg s)
    (s : Sending) (oks : SendableWith E.F cfg s) (part missing : Bytes) (cut : s.head.render = part ++ missing) (more : missing ≠ [])
    (stream : cl.stream = ss.flatMap Sending.bytes ++ part) :
    ∃ c why vs frames, serve E (newConn E.P cfg enc remote st (followedBy cl post)) = (c, some why) ∧
      c.visits = vs ∧ c.client.written = cl.written ++ frames ∧
      Conversation E cfg.maxEncodingTokens.toNat remote part post (Silence E) { Encryption := enc } st
        (Serializer.new cfg.responseBuffSize (cfg.defaultHeaders.getD [])) Fields.new cl.wscript ss vs frames why := by
  obtain ⟨vs, frames, why, h1, h2⟩ := serve_conversation E dec (L := headLimits cfg) (limit := cfg.bodyMaxSize.toNat)
    (by unfold maxUint; omega) (remote := remote) part post (Silence E)
    (by
      intro env c cl1 idle hc q hs
      have hs' : (segs cl1).flatten = part := by rw [segs_flatten, hs]
      obtain ⟨p2, extra, rest2, g1, g2, _, _, _⟩ := C01_head_any_segmentation E.F c.parser idle.ready idle.cleared s.head
        oks.ok oks.clean oks.noBareEmpty (by rw [idle.limits]; exact oks.fits) s.path oks.path [] (segs cl1 ++ [missing])
        (by simp [hs', cut])
      rcases hf : Parser.feed E.F c.parser (segs cl1) with ⟨p', r, rest⟩
      have hr : r = .pending := by
        cases Decidable.em (r = .pending) with
        | inl h => exact h
        | inr h =>
          have := feed_append E.F (segs cl1) [missing] c.parser p' r rest hf h
          rw [g1] at this
          simp only [Prod.mk.injEq] at this
          rw [this.2.2] at g2
          simp [more] at g2
      subst hr
      obtain ⟨ans, left, more, k1, k2, k3⟩ := serve_silence E silent c cl1 hc q idle.hijacked p' rest hf
      exact ⟨_, more, _, k1, _, ans, left, rfl, k2, k3, rfl⟩)
    ss { Encryption := enc } (newConn E.P cfg enc remote st (followedBy cl post)) cl tame
    (newConn_idle E cfg enc remote st _) rfl quiet ok stream
  exact ⟨_, why, vs, frames, by rw [← h1.why], by rw [h1.visits]; rfl, h1.written, h2⟩

end Indigo.Props
