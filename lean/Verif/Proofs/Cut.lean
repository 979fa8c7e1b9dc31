/-
Requests whose body does not come to its end.
-/
import Verif.Spec.Cut
import Verif.Proofs.Serve5

namespace Indigo.Serve
open Indigo.Spec Indigo.Body
variable {σ ρ : Type}

/-- Nothing but errors can be read. -/
def Dead (c : Client) : Prop := c.pending = [] ∧ Over c.conn

/-- `rest` can be read, and then nothing but errors. -/
def Fading (c : Client) (rest : Bytes) : Prop :=
  ∃ qs es, c.conn = qs ++ es ∧ (∀ ev ∈ qs, ev.2 = none) ∧ Over es ∧ rest = c.pending ++ (qs.map (·.1)).flatten

theorem fading_followedBy {c : Client} {post} (q : Quiet c) (over : Over post) : Fading (followedBy c post) c.stream :=
  ⟨c.conn, post, rfl, q, over, rfl⟩

theorem fading_ok {c c1 : Client} {rest d : Bytes} (h : Fading c rest) (hr : c.read = ((d, none), c1)) :
    ∃ rest', rest = d ++ rest' ∧ Fading c1 rest' ∧ c1.pending = [] := by
  obtain ⟨qs, es, h1, h2, h3, rfl⟩ := h
  unfold Client.read at hr
  split at hr
  · cases hr
    exact ⟨_, rfl, ⟨qs, es, h1, h2, h3, by simp⟩, rfl⟩
  · rename_i hp
    have hp : c.pending = [] := by simpa using hp
    cases qs with
    | nil =>
      cases es with
      | nil => simp at h1; rw [h1] at hr; cases hr
      | cons ev es =>
        simp at h1; rw [h1] at hr
        simp only [Prod.mk.injEq] at hr
        exact absurd (by rw [hr.1]) (h3 ev (by simp))
    | cons q qs =>
      rw [List.cons_append] at h1
      rw [h1] at hr
      simp only [Prod.mk.injEq] at hr
      obtain ⟨rfl, rfl⟩ := hr
      exact ⟨(qs.map (·.1)).flatten, by simp [hp], ⟨qs, es, rfl, fun ev he => h2 ev (by simp [he]), h3, by simp [hp]⟩, hp⟩

theorem fading_err {c c1 : Client} {rest d : Bytes} {e : GoErr} (h : Fading c rest) (hr : c.read = ((d, some e), c1)) :
    rest = [] ∧ Dead c1 := by
  obtain ⟨qs, es, h1, h2, h3, rfl⟩ := h
  unfold Client.read at hr
  split at hr
  · cases hr
  · rename_i hp
    have hp : c.pending = [] := by simpa using hp
    cases qs with
    | nil =>
      cases es with
      | nil =>
        simp at h1; rw [h1] at hr
        simp only [Prod.mk.injEq] at hr
        obtain ⟨-, rfl⟩ := hr
        exact ⟨by simp [hp], hp, by rw [h1]; intro ev he; cases he⟩
      | cons ev es =>
        simp at h1; rw [h1] at hr
        simp only [Prod.mk.injEq] at hr
        obtain ⟨-, rfl⟩ := hr
        exact ⟨by simp [hp], hp, fun ev he => h3 ev (by simp at he; simp [he])⟩
    | cons q qs =>
      rw [List.cons_append] at h1
      rw [h1] at hr
      simp only [Prod.mk.injEq] at hr
      have := h2 q (by simp)
      rw [hr.1] at this
      cases this

theorem fading_unread {c : Client} {rest : Bytes} (h : Fading c rest) (hp : c.pending = []) (x : Bytes) :
    Fading (c.unread x) (x ++ rest) := by
  obtain ⟨qs, es, h1, h2, h3, rfl⟩ := h
  exact ⟨qs, es, h1, h2, h3, by simp [Client.unread, hp]⟩

theorem fading_dead {c : Client} (h : Dead c) : Fading c [] :=
  ⟨[], c.conn, rfl, nofun, h.2, by simp [h.1]⟩

theorem dead_read {c : Client} (h : Dead c) : ∃ d e, c.read.1 = (d, some e) := by
  unfold Client.read
  rw [h.1]
  cases hc : c.conn with
  | nil => exact ⟨_, _, rfl⟩
  | cons ev conn =>
    obtain ⟨d, e⟩ := ev
    cases e with
    | none => exact absurd rfl (h.2 (d, none) (by rw [hc]; simp))
    | some e => exact ⟨d, e, rfl⟩

/-- The body cannot be read to its end, unless the connection says that it is over. -/
def Stuck (_ : ChunkedParser σ) (D : σ → Bool → Bytes → Bytes → Bytes → Prop) (s : BC σ) : Prop :=
  (s.1.eof = true ∧ Dead s.2) ∨
  (s.1.eof = false ∧ ∃ rest, Fading s.2 rest ∧
    ((s.1.isChunked = false ∧ (s.1.maxBodyLen < s.1.bytesLeft ∨ rest.length < s.1.bytesLeft)) ∨
     (s.1.isChunked = true ∧ s.1.maxBodyLen ≤ maxUint ∧ ∃ missing body, missing ≠ [] ∧
        D s.1.parser s.1.hasTrailer (rest ++ missing) body [] ∧ s.1.received + body.length ≤ s.1.maxBodyLen)))

theorem stuck_retrieve (P : ChunkedParser σ) {D} (hP : Decodes P D) (s : BC σ) (h : Stuck P D s) : Stuck P D (retrieve P s).2 := by
  obtain ⟨b, c⟩ := s
  rcases h with ⟨h1, h2⟩ | ⟨h1, rest, hf, ⟨h2, h3⟩ | ⟨h2, hmax, missing, body, h3, h4, h5⟩⟩
  · rw [retrieve_eof P h1]; exact .inl ⟨h1, h2⟩
  · simp only at h1 h2 h3
    rw [retrieve_plain P h2 h1]
    have hb : b.bytesLeft ≠ 0 := by rcases h3 with h3 | h3 <;> omega
    simp only [plainRead, if_neg hb]
    rcases hr : c.read with ⟨⟨d, e⟩, c1⟩
    cases e with
    | some e =>
      obtain ⟨rfl, hd⟩ := fading_err hf hr
      dsimp only
      by_cases he : e = .eof
      · subst he
        exact .inl ⟨by simp [checkEOF], hd⟩
      · refine .inr ⟨by simp [checkEOF, he, h1], [], fading_dead hd, .inl ⟨by simp [checkEOF, he, h2], ?_⟩⟩
        simpa [checkEOF, he] using h3
    | none =>
      obtain ⟨rest', rfl, hf', hp⟩ := fading_ok hf hr
      dsimp only
      by_cases hm : b.bytesLeft > b.maxBodyLen
      · rw [if_pos hm]
        exact .inr ⟨by simp [checkEOF, h1], rest', hf', .inl ⟨by simp [checkEOF, h2], .inl (by simpa [checkEOF] using hm)⟩⟩
      · have h3 : (d ++ rest').length < b.bytesLeft := by rcases h3 with h3 | h3 <;> omega
        rw [List.length_append] at h3
        rw [if_neg hm, if_neg (by omega)]
        exact .inr ⟨by simp [checkEOF, h1], rest', hf', .inl ⟨by simp [checkEOF, h2], .inr (by simp [checkEOF]; omega)⟩⟩
  · simp only at h1 h2 h4 h5 hmax
    rw [retrieve_chunked P h2 h1]
    rcases hr : c.read with ⟨⟨d, e⟩, c1⟩
    cases e with
    | some e =>
      obtain ⟨rfl, hd⟩ := fading_err hf hr
      rw [chunkedRead_err P hr]
      dsimp only
      by_cases he : e = .eof
      · subst he
        exact .inl ⟨by simp [checkEOF], hd⟩
      · have hb : b.checkEOF (some e) = b := by simp [checkEOF, he]
        rw [hb]
        exact .inr ⟨h1, [], fading_dead hd, .inr ⟨h2, hmax, missing, body, h3, h4, h5⟩⟩
    | none =>
      obtain ⟨rest', rfl, hf', hp⟩ := fading_ok hf hr
      rcases hpr : P.parse b.parser d b.hasTrailer with ⟨st, chunk, extra, err⟩
      rw [chunkedRead_ok P hr hpr]
      obtain ⟨used, hu1, hu2⟩ := P.suffix b.parser d b.hasTrailer
      rw [hpr] at hu1
      simp only at hu1
      have hcase : err = none ∧ ∃ body', body = chunk ++ body' ∧ D st b.hasTrailer (extra ++ rest' ++ missing) body' [] := by
        by_cases hd : d = []
        · have := hP.empty _ _ _ _ _ h4
          rw [show P.parse b.parser [] b.hasTrailer = (st, chunk, extra, err) by rw [← hpr, hd]] at this
          simp only at this
          obtain ⟨g1, g2, g3⟩ := this
          rw [hd] at hu1
          have hex : extra = [] := (List.append_eq_nil_iff.1 hu1.symm).2
          exact ⟨g1, body, by simp [g2], by simpa [hex, hd] using g3⟩
        · rw [List.append_assoc] at h4
          have := hP.step _ _ _ _ _ _ h4 hd
          rw [hpr] at this
          rcases this with ⟨g1, body', g2, g3⟩ | ⟨-, -, g3, -⟩
          · exact ⟨g1, body', g2, by simpa using g3⟩
          · simp only at g3
            exact absurd (by simpa using g3 : extra = [] ∧ rest' = [] ∧ missing = []).2.2 h3
      obtain ⟨rfl, body', rfl, hD⟩ := hcase
      simp only [List.length_append] at h5
      have hadd : adduint b.received chunk.length = (b.received + chunk.length, false) := adduint_ok (by omega)
      have hdone : chunkedDone { b with parser := st } c1 chunk extra none =
          ((chunk, none), ({ b with parser := st, received := b.received + chunk.length }, c1.unread extra)) := by
        simp only [chunkedDone, isFatal, hadd]
        rw [if_neg (by simp), if_neg (by simp; omega)]
      rw [hdone]
      simp only [checkEOF_none]
      exact .inr ⟨h1, extra ++ rest', fading_unread hf' hp extra, .inr ⟨h2, hmax, missing, body', h3, hD, by simp only; omega⟩⟩

theorem stuck_aux (P : ChunkedParser σ) {D} (b : Body σ) (c : Client) (a : Aux) (h : Stuck P D (b, c)) : Stuck P D (withAux b a, c) := h

theorem fading_withOut {c : Client} {rest : Bytes} (o : Client) (h : Fading c rest) : Fading (withOut c o) rest := h

theorem stuck_withOut (P : ChunkedParser σ) {D} (b : Body σ) (c o : Client) (h : Stuck P D (b, c)) : Stuck P D (b, withOut c o) := h

/-- Discarding such a body fails, or there is nothing more to be read. -/
theorem stuck_discard (P : ChunkedParser σ) {D} (hP : Decodes P D) (s : BC σ) (h : Stuck P D s) :
    (∃ e s', discard P (fuel s) s = (some e, s')) ∨ ∃ s', discard P (fuel s) s = (none, s') ∧ Dead s'.2 := by
  obtain ⟨ds, e, s', hp⟩ := pieces_total P s
  have hd := discard_pieces P hp (fuel s) (by unfold fuel; omega)
  have hs := discard_inv P (Stuck P D) (stuck_retrieve P hP) (fuel s) s h
  rw [hd] at hs
  by_cases he : e = .eof
  · subst he
    rw [if_pos rfl] at hd
    refine .inr ⟨s', hd, ?_⟩
    rcases hs with hs | ⟨hs, -⟩
    · exact hs.2
    · rw [show s'.1.eof = true from pieces_eof P hp] at hs; cases hs
  · rw [if_neg he] at hd
    exact .inl ⟨e, s', hd⟩

/-- The body announced by such a head. -/
theorem cut_stuck (P : ChunkedParser σ) {D} (dec : ∀ t chunks coded after, ChunkedCoding chunks coded → D P.init t (coded ++ after) chunks.flatten after)
    (F : Fold) (maxTokens : Nat) (h : Head) (given : Bytes) (seen : Request) (carries : Carries F maxTokens h seen) (b : Body σ)
    (ready : b.parser = P.init) (cut : CutBody F maxTokens b.maxBodyLen h given) (uint : b.maxBodyLen ≤ maxUint) (c : Client) (q : Quiet c)
    (stream : c.stream = given) (post) (over : Over post) : Stuck P D (b.initFor seen, followedBy c post) := by
  have hch : seen.Encoding.Chunked = h.isChunked F maxTokens := by
    rw [carries.chunked, carries.transfer]; rfl
  have hf := fading_followedBy q over
  rw [stream] at hf
  refine .inr ⟨(initFor_fresh b seen).1, given, hf, ?_⟩
  cases cut with
  | short h1 h2 =>
    rw [h1] at hch
    obtain ⟨i1, i2, -⟩ := initFor_plain b seen hch
    rw [carries.contentLength, toUint_bmod] at i2
    exact .inl ⟨i1, .inr (by rw [i2]; exact h2)⟩
  | large h1 h2 =>
    rw [h1] at hch
    obtain ⟨i1, i2, -⟩ := initFor_plain b seen hch
    rw [carries.contentLength, toUint_bmod] at i2
    exact .inl ⟨i1, .inl (by rw [i2, initFor_max]; exact h2)⟩
  | chunked chunks missing h1 h2 h3 h4 =>
    rw [h1] at hch
    obtain ⟨i1, i2, i3, i4, i5⟩ := initFor_chunked b seen hch
    refine .inr ⟨i1, by rw [initFor_max]; exact uint, missing, chunks.flatten, h3, ?_, by rw [i2, initFor_max]; omega⟩
    rw [i5, ready]
    have := dec (b.initFor seen).hasTrailer chunks (given ++ missing) [] h2
    simpa using this

/-- The head of such a request is read, and the router is called with it. -/
theorem serve_announced (E : Setup σ ρ) {L : Limits} {T limit : Nat}
    {remote env} (c : Conn σ ρ) (idle : Idle E L T limit remote env c) (cl : Client) (q : Quiet cl) (post)
    (hc : c.client = followedBy cl post) (h : Head) (path : Bytes) (good : GoodHead L h path) (given : Bytes)
    (stream : cl.stream = h.render ++ given) :
    ∃ p' cl', p'.req.wasHijacked = false ∧ cl'.written = cl.written ∧ cl'.wscript = cl.wscript ∧ Quiet cl' ∧ cl'.stream = given ∧
      Announced E T remote post env h path given p'.req (c.body.initFor p'.req, followedBy cl' post) ∧
      serve E c = go E (match onRequest E (called E c p' (followedBy cl' post)) with
        | (none, c2) => (c2, some .panicked)
        | (some resp, c2) => respond E (opening E.F c.ser c.upgradePreResp p'.req).1 c2 resp) := by
  have hfits : h.Fits (Parser.limits c.parser) := by rw [idle.limits]; exact good.fits
  obtain ⟨p', extra, rest, h1, h2, h3, h4, h5⟩ := Props.C01_head_any_segmentation E.F c.parser idle.ready idle.cleared h
    good.ok good.clean good.noBareEmpty hfits path good.path given (segs cl)
    (by rw [segs_flatten, stream])
  rw [idle.tokens] at h4
  have hrest := Parser.feed_rest E.F (segs cl) c.parser
  rw [h1] at hrest
  obtain ⟨cl1, g1, g2, g3, g4, g5, g6⟩ := serve_feed E post cl.size c cl p' (.completed extra) rest (Nat.le_refl _) hc q h1 nofun
  have hstream : (cl1.unread extra).stream = given := by
    have := segs_flatten cl1
    rw [g3] at this
    rw [← h2, this]
    simp [Client.stream, Client.unread, g2]
  have hr : Parser.restOf p'.req = Parser.restOf c.parser.req := hrest.rest
  simp only [Parser.restOf, Prod.mk.injEq] at hr
  obtain ⟨r1, r2, r3, r4, r5, r6⟩ := hr
  refine ⟨p', cl1.unread extra, by rw [r5]; exact idle.hijacked, g4, g5, g1, hstream, ?_, ?_⟩
  · exact {
      carries := h4, path := h3
      params := by rw [r1]; exact idle.params
      ctx := by rw [r3]; exact idle.ctx
      env := by rw [r4]; exact idle.env
      remote := by rw [r2]; exact idle.remote
      hijacked := by rw [r5]; exact idle.hijacked
      fresh := ⟨c.body, rfl, idle.decoder⟩
      rest := ⟨_, rfl, hstream, g1⟩ }
  · rw [g6]
    simp only [finish, headersCompleted]
    rw [preResponse_eq E _ (carries_upgrade h4)]
    rfl

/-- The connection `c3` is `c` after the router was called with such a request and its answer was written. -/
structure Written (E : Setup σ ρ) (T : Nat) (remote : Bytes) (post : List (Bytes × Option GoErr)) (h : Head) (path given : Bytes) (env : Environment)
    (c c3 : Conn σ ρ) (seen : Request) (world : BC σ) (f : Fields) (req : Request) (left : Act.World σ) (W : Serializer.Written) : Prop where
  announced : Announced E T remote post env h path given seen world
  fresh : world.1 = c.body.initFor seen
  answers : Answers E c.router seen world (some (f, req), left)
  kept : left.hijacked = false
  write : W = Serializer.write E.F (opening E.F c.ser c.upgradePreResp seen).2.1 (opening E.F c.ser c.upgradePreResp seen).1 req f { wscript := c.client.wscript }
  router : c3.router = (E.router.onRequest c.router seen).2
  hijacked : c3.req.wasHijacked = false
  visits : c3.visits = c.visits ++ [.request seen world (some (f, req)) left]
  body : c3.body = left.body
  client : c3.client = Serializer.onto left.client W.client
  written : c3.client.written = c.client.written ++ W.client.written

theorem go_closing (E : Setup σ ρ) (x : Conn σ ρ) (why : Ended) : go E (closing E x why) = closing E x why := by
  obtain ⟨v, hv⟩ := closing_some E x why
  rcases hk : closing E x why with ⟨a, b⟩
  rw [hk] at hv
  cases b with
  | none => cases hv
  | some b => rfl

/-- If the connection is closed then, this was the last request. -/
theorem Written.closed {E : Setup σ ρ} {T : Nat} {remote : Bytes} {post : List (Bytes × Option GoErr)} {h : Head} {path given : Bytes} {env : Environment}
    {c c3 : Conn σ ρ} {seen : Request} {world : BC σ} {f : Fields} {req : Request} {left : Act.World σ} {W : Serializer.Written}
    (hw : Written E T remote post h path given env c c3 seen world f req left W) (c' : Conn σ ρ) (why : Ended) (e : Option GoErr)
    (m5 : serve E c = closing E c' why) (m1 : c'.router = c3.router) (m2 : c'.req.wasHijacked = false) (m3 : c'.visits = c3.visits)
    (m4 : c'.client.written = c3.client.written) (m6 : W.out = .done e)
    (m7 : why ∈ (if e.isSome then [Ended.writeFailed] else [.clearFailed, .readFailed])) :
    ∃ vs frames why, Came E c vs frames why ∧
      LastRequest E T remote post h path given env c.router c.ser c.upgradePreResp c.client.wscript vs frames why := by
  obtain ⟨c'', ans, left', more, k1, k2, k3, k4, k5⟩ := closing_eq E c' why
  rw [k1] at m5
  rw [m1, hw.router] at k5
  refine ⟨_, W.client.written ++ more, _, ⟨?_, ?_, ?_⟩, .answered (seen' := c'.req) (ans := ans) hw.announced hw.answers hw.kept hw.write m6
    ⟨_, ?_, k5⟩ k4 m7⟩
  · rw [m5]
  · rw [m5]; show c''.visits = _; rw [k2, m3, hw.visits]; simp
  · rw [m5]; show c''.client.written = _; rw [k3, m4, hw.written]; simp
  · exact m2

/-- Such a request is the last one, or its answer is written, and then its body is discarded. -/
theorem serve_answered (E : Setup σ ρ) {L : Limits} {T limit : Nat}
    {remote : Bytes} (post : List (Bytes × Option GoErr)) (h : Head) (path given : Bytes) (good : GoodHead L h path)
    (env : Environment) (c : Conn σ ρ) (cl : Client)
    (idle : Idle E L T limit remote env c) (hc : c.client = followedBy cl post) (q : Quiet cl) (stream : cl.stream = h.render ++ given) :
    (∃ vs frames why, Came E c vs frames why ∧
      LastRequest E T remote post h path given env c.router c.ser c.upgradePreResp c.client.wscript vs frames why) ∨
    ∃ c3 seen world f req left W, Written E T remote post h path given env c c3 seen world f req left W ∧ W.out = .done none ∧
      serve E c = go E (clearing E c3) := by
  obtain ⟨p', cl', h1, h4, h5, h2, h3, h6, h8⟩ := serve_announced E c idle cl q post hc h path good given stream
  have hwr : cl'.written = c.client.written := by rw [h4, hc]; rfl
  have hws : cl'.wscript = c.client.wscript := by rw [h5, hc]; rfl
  generalize hc1 : called E c p' (followedBy cl' post) = c1 at h8
  have e1 : c1.req = p'.req := by rw [← hc1]; rfl
  have e2 : c1.router = c.router := by rw [← hc1]; rfl
  have e3 : c1.world = { body := c.body.initFor p'.req, client := followedBy cl' post, hijacked := false } := by
    rw [← hc1]
    unfold Conn.world
    rw [show (called E c p' (followedBy cl' post)).parser.req.wasHijacked = false from h1]
    rfl
  have e4 : (c1.body, c1.client) = (c.body.initFor p'.req, followedBy cl' post) := by rw [← hc1]; rfl
  rw [onRequest_eq, e1, e2, e3, e4] at h8
  rcases hx : (E.router.onRequest c.router p'.req).1.run E.P E.maxAlloc
    { body := c.body.initFor p'.req, client := followedBy cl' post, hijacked := false } with ⟨o, w⟩
  have hans : Answers E c.router p'.req (c.body.initFor p'.req, followedBy cl' post) (o, w) := hx
  have hpre := run_prefix E.P E.maxAlloc (E.router.onRequest c.router p'.req).1
    { body := c.body.initFor p'.req, client := followedBy cl' post, hijacked := false }
  have hout := run_out E.P E.maxAlloc (E.router.onRequest c.router p'.req).1
    { body := c.body.initFor p'.req, client := followedBy cl' post, hijacked := false }
  rw [hx] at h8 hpre hout
  dsimp only at h8 hpre hout
  obtain ⟨frames, hframes⟩ := hpre
  have hvis : c1.visits = c.visits := by rw [← hc1]; rfl
  have hw0 : (followedBy cl' post).written = c.client.written := hwr
  cases o with
  | none =>
    refine .inl ⟨_, frames, .panicked, ⟨?_, ?_, ?_⟩, .panicked h6 hans hframes.symm ?_⟩
    · rw [h8]; rfl
    · rw [h8]; simp [go, Conn.after, hvis]
    · rw [h8]; simp only [go, Conn.after, Option.map]; rw [← hframes, hw0]
    · intro hh
      have := (hout hh).1
      rw [← hframes] at this
      simpa using this
  | some fr =>
    obtain ⟨f, req⟩ := fr
    dsimp only [Option.map, Option.getD] at h8
    cases hh : w.hijacked with
    | true =>
      refine .inl ⟨_, frames, .hijacked, ⟨?_, ?_, ?_⟩, .hijacked h6 hans hframes.symm hh⟩
      · rw [h8]; simp [respond, Conn.after, Conn.req, hh, go]
      · rw [h8]; simp [respond, Conn.after, Conn.req, hh, go, hvis]
      · rw [h8]; simp only [respond, Conn.after, Conn.req, hh, if_true, go]; rw [← hframes, hw0]
    | false =>
      obtain ⟨l2, l3⟩ := hout hh
      generalize hd : opening E.F c.ser c.upgradePreResp p'.req = d at h8
      have hser : c1.ser = d.2.1 := by rw [← hc1, ← hd]; rfl
      have hws' : w.client.wscript = c.client.wscript := l3.trans hws
      have hww : w.client.written = c.client.written := l2.trans hw0
      generalize hW : Serializer.write E.F d.2.1 d.1 req f { wscript := c.client.wscript } = W
      have hwrite : Serializer.write E.F d.2.1 d.1 { req with wasHijacked := w.hijacked } f w.client =
          { W with client := Serializer.onto w.client W.client } := by
        rw [write_hijacked, Serializer.write_eq_onto, hws', hW]
      generalize hc2 : c1.after (E.router.onRequest c.router p'.req).2 req w
        (.request p'.req (c.body.initFor p'.req, followedBy cl' post) (some (f, req)) w) = c2 at h8
      have f1 : c2.req = { req with wasHijacked := w.hijacked } := by rw [← hc2]; rfl
      have f2 : c2.client = w.client := by rw [← hc2]; rfl
      have f3 : c2.ser = d.2.1 := by rw [← hser, ← hc2]; rfl
      unfold respond at h8
      rw [f1, f2, f3, hwrite] at h8
      simp only [hh, Bool.false_eq_true, if_false] at h8
      have f4 : c2.visits = c.visits ++ [.request p'.req (c.body.initFor p'.req, followedBy cl' post) (some (f, req)) w] := by
        rw [← hc2, ← hvis]; rfl
      have hW' : W = Serializer.write E.F (opening E.F c.ser c.upgradePreResp p'.req).2.1
          (opening E.F c.ser c.upgradePreResp p'.req).1 req f { wscript := c.client.wscript } := by rw [hd, hW]
      have f10 : c2.router = (E.router.onRequest c.router p'.req).2 := by rw [← hc2]; rfl
      have f5 : c2.body = w.body := by rw [← hc2]; rfl
      have hwr2 : (Serializer.onto w.client W.client).written = c.client.written ++ W.client.written := by
        simp [Serializer.onto, hww]
      have written : Written E T remote post h path given env c { c2 with ser := W.ser, client := Serializer.onto w.client W.client } p'.req
          (c.body.initFor p'.req, followedBy cl' post) f req w W :=
        ⟨h6, rfl, hans, hh, hW', f10, by show c2.req.wasHijacked = false; rw [f1]; exact hh, f4, f5, rfl, hwr2⟩
      cases ho : W.out with
      | panic =>
        rw [ho] at h8
        refine .inl ⟨_, W.client.written, .panicked, ⟨?_, ?_, ?_⟩, .broken h6 hans hh hW' ho⟩
        · rw [h8]; rfl
        · rw [h8]; exact f4
        · rw [h8]; simp [go, Serializer.onto, hww]
      | done e =>
        rw [ho] at h8
        cases e with
        | some e =>
          dsimp only at h8
          rw [go_closing] at h8
          exact .inl (written.closed _ _ _ h8 rfl written.hijacked rfl rfl ho (by simp))
        | none =>
          dsimp only at h8
          exact .inr ⟨_, _, _, _, _, _, _, written, ho, h8⟩

/-- A request is the last one, if the body which the handler leaves (`Q`) cannot be discarded. -/
theorem serve_final (E : Setup σ ρ) {L : Limits} {T limit : Nat}
    {remote : Bytes} (post : List (Bytes × Option GoErr)) (h : Head) (path given : Bytes) (good : GoodHead L h path)
    (env : Environment) (c : Conn σ ρ) (cl : Client) (Q : BC σ → Prop)
    (hQ : ∀ seen world o w, Announced E T remote post env h path given seen world → world.1 = c.body.initFor seen →
      Answers E c.router seen world (o, w) → w.hijacked = false → Q (w.body, w.client))
    (hkeep : ∀ b c o, Q (b, c) → Q (b, withOut c o))
    (hfail : ∀ s, Q s → (∃ e s', discard E.P (fuel s) s = (some e, s')) ∨ ∃ s', discard E.P (fuel s) s = (none, s') ∧ Dead s'.2)
    (idle : Idle E L T limit remote env c) (hc : c.client = followedBy cl post) (q : Quiet cl) (stream : cl.stream = h.render ++ given) :
    ∃ vs frames why, Came E c vs frames why ∧
      LastRequest E T remote post h path given env c.router c.ser c.upgradePreResp c.client.wscript vs frames why := by
  rcases serve_answered E post h path given good env c cl idle hc q stream with h0 | ⟨c3, seen, world, f, req, w, W, hw, ho, h8⟩
  · exact h0
  have hstuck : Q (w.body, Serializer.onto w.client W.client) :=
    hkeep w.body w.client (Serializer.onto w.client W.client) (hQ _ _ _ _ hw.announced hw.fresh hw.answers hw.kept)
  have hio := discard_inv E.P (fun s => s.2.written = (Serializer.onto w.client W.client).written)
    (fun s hs => (retrieve_out E.P s).1.trans hs) (fuel (w.body, Serializer.onto w.client W.client))
    (w.body, Serializer.onto w.client W.client) rfl
  have hcw := hw.client
  unfold clearing at h8
  simp only [hw.body, hw.client] at h8
  rcases hfail _ hstuck with ⟨e, ⟨b', c'⟩, hdis⟩ | ⟨⟨b', c'⟩, hdis, hdead⟩
  · rw [hdis] at h8 hio
    simp only at h8 hio
    rw [go_closing] at h8
    exact hw.closed _ _ _ h8 rfl hw.hijacked rfl (by show c'.written = _; rw [hio, hcw]) ho (by simp)
  · rw [hdis] at h8 hio
    simp only at h8 hio
    simp only [go] at h8
    replace h8 := h8.trans (serve_step E _)
    obtain ⟨d', e', hrd⟩ := dead_read hdead
    rcases hr : c'.read with ⟨⟨d'', e''⟩, c''⟩
    rw [hr] at hrd
    simp only [Prod.mk.injEq] at hrd
    obtain ⟨rfl, rfl⟩ := hrd
    unfold step at h8
    simp only [hr] at h8
    rw [go_closing] at h8
    refine hw.closed _ _ _ h8 rfl ?_ rfl ?_ ho (by simp)
    · exact hw.hijacked
    · show c''.written = _
      rw [(read_writes hr).1, hio, hcw]

/-- A request whose body cannot be read to its end is the last one. -/
theorem serve_last (E : Setup σ ρ) (dec : DecodesChunked E.P) {L : Limits} {T limit : Nat} (uint : limit ≤ maxUint)
    {remote : Bytes} (post : List (Bytes × Option GoErr)) (over : Over post) (h : Head) (path given : Bytes) (good : GoodHead L h path)
    (cut : CutBody E.F T limit h given) (env : Environment) (c : Conn σ ρ) (cl : Client)
    (idle : Idle E L T limit remote env c) (hc : c.client = followedBy cl post) (q : Quiet cl) (stream : cl.stream = h.render ++ given) :
    ∃ vs frames why, Came E c vs frames why ∧
      LastRequest E T remote post h path given env c.router c.ser c.upgradePreResp c.client.wscript vs frames why := by
  obtain ⟨D, hD, hdec⟩ := dec
  refine serve_final E post h path given good env c cl (Stuck E.P D) ?_ (fun b c o => stuck_withOut E.P b c o)
    (stuck_discard E.P hD) idle hc q stream
  rintro seen world o w ann hb hans hh
  obtain ⟨cl', hcl, hs, hq⟩ := ann.rest
  have h7 := cut_stuck E.P hdec E.F T h given seen ann.carries c.body idle.decoder (by rw [idle.bodyMax]; exact cut)
    (by rw [idle.bodyMax]; exact uint) cl' hq hs post over
  have hleft := run_inv E.P (Stuck E.P D) (stuck_retrieve E.P hD) (stuck_aux E.P) E.maxAlloc (E.router.onRequest c.router seen).1
    { body := world.1, client := world.2, hijacked := false } (by rw [hb, hcl]; exact h7)
  rw [show (E.router.onRequest c.router seen).1.run E.P E.maxAlloc { body := world.1, client := world.2, hijacked := false } = (o, w)
    from hans] at hleft
  exact (hleft hh).2

end Indigo.Serve
