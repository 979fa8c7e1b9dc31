/-
C71: a client can read the responses to its requests.
-/
import Verif.Props.ServeWitness
import Verif.Props.Framing
import Verif.Spec.Replies

namespace Indigo.Props
open Indigo.Serve Indigo.Spec Indigo.Serializer
variable {σ ρ : Type}

/-- A response without attachment, read from the stream in which it was written, after what had been in the buffer. -/
theorem readReply_plain (F : Fold) {defs : List (Bytes × Bytes)} (hd : DefaultsOK F defs) {n : Int} {earlier : List Pair}
    {d : Serializer} (hr : Serializer.Ready F n defs earlier { d with buff := [] }) {p : Proto} {version : Bytes} (hp : versionName p = some version) (req : Request)
    {f : Fields} (hf : Readable defs p f) (ha : f.Attachment.content = none) (c : Client) (hc : NoWriteError c) :
    ∃ text bytes msg, (d.write F p req f c).client.written = c.written ++ text ∧ NoWriteError (d.write F p req f c).client ∧
      (d.write F p req f c).out ≠ .panic ∧ text.flatten = d.buff ++ bytes ∧
      (∀ more, readReply req.Method (bytes ++ more) = some (msg, more)) ∧ msg.version = version ∧ msg.code = f.Code ∧
      msg.rest = (if req.Method = .HEAD then [] else f.Body) ∧
      SaysFields defs f msg.fields := by
  obtain ⟨hpp, hv⟩ := version_some hp
  rw [write_plain F d p req f c ha]
  have hds : d.defaultHeaders = defaultsAfter F defs earlier := hr.defaults
  refine ⟨[_], Proto.toBytes p ++ plainHead F (defaultsAfter F defs earlier) f ++ (if req.Method ≠ .HEAD then f.Body else []),
    { version, code := f.Code, reason := reasonFor f,
      fields := (expectedFields F defs earlier f).map (fun kv => (kv.1, stripOWS kv.2)),
      rest := if req.Method = .HEAD then [] else f.Body }, rfl, (write_noError hc _).2, by simp, by simp [hds], ?_, rfl, rfl, rfl, ?_⟩
  · intro more
    have hread := read_plain F hd earlier hf.clean hpp ((if req.Method ≠ .HEAD then f.Body else []) ++ more)
    rw [← List.append_assoc] at hread
    unfold readReply
    rw [hread, hv]
    dsimp only
    have hfr : framingFields ((expectedFields F defs earlier f).map (fun kv => (kv.1, stripOWS kv.2))) =
        [(b!"Content-Length", decBytes f.Body.length)] := by
      have hno : NoFraming defs f := hf.framing
      obtain ⟨t1, t2⟩ := framing_own hno earlier F
      show framing _ = _
      simp only [expectedFields, List.map_append, framing_append]
      have t3 : framing ((f.Cookies.map (fun c => (b!"Set-Cookie", setCookieValue c))).map (fun kv => (kv.1, stripOWS kv.2))) = [] := by
        apply framing_nil
        intro kv hkv
        simp only [List.mem_map] at hkv
        obtain ⟨_, ⟨x, hx, rfl⟩, rfl⟩ := hkv
        exact framing_name (k := b!"Set-Cookie") (v := []) (by decide)
      have t4 : framing ([(b!"Content-Type", f.ContentType)].map (fun kv => (kv.1, stripOWS kv.2))) = [] :=
        framing_name (k := b!"Content-Type") (v := []) (by decide)
      have t5 : framing ([(b!"Content-Length", decBytes f.Body.length)].map (fun kv => (kv.1, stripOWS kv.2))) =
          [(b!"Content-Length", decBytes f.Body.length)] := by
        simp only [List.map_cons, List.map_nil, stripOWS_decBytes]
        have hl : (lower b!"Content-Length" == b!"content-length") = true := by decide
        simp [framing, hl]
      rw [t1, t2, t3, hno.2.2, t4, t5]
      simp [framing]
    rw [hfr]
    dsimp only
    rw [readDecimal_decBytes]
    dsimp only
    have hlow : ¬ lower b!"Content-Length" = b!"transfer-encoding" := by decide
    rw [if_neg hlow]
    by_cases hh : req.Method = .HEAD
    · simp [bodiless, hh]
    · by_cases hb : f.Code = 204 ∨ f.Code = 304
      · rw [(hf.noBody hb).1]
        have : bodiless req.Method f.Code = true := by
          rcases hb with h | h <;> simp [bodiless, h]
        simp [this]
      · rw [bodied hf.final hh hb]
        simp [hh]
  · refine ⟨defs.filter (fun d => !(earlier ++ f.Headers).any (fun h => F.eq d.1 h.Key)), List.filter_sublist, ?_⟩
    simp only [expectedFields, ha, if_pos hf.framing.2.2, List.append_nil, List.append_assoc]
where
  bodied {m : Method} {code : Nat} (final : 200 ≤ code) (hh : m ≠ .HEAD) (hb : ¬ (code = 204 ∨ code = 304)) : bodiless m code = false := by
    simp only [not_or] at hb
    simp only [bodiless, hh, hb.1, hb.2, decide_false, Bool.or_false, Bool.false_or]
    simp [Nat.not_lt.2 final]

/-- A response with attachment, read from the stream in which it was written, after what had been in the buffer. -/
theorem readReply_attached (F : Fold) {defs : List (Bytes × Bytes)} (hd : DefaultsOK F defs) {n : Int} (hn : n < 16 ^ 8) {earlier : List Pair}
    {d : Serializer} (hr : Serializer.Ready F n defs earlier { d with buff := [] }) {p : Proto} {version : Bytes} (hp : versionName p = some version) (req : Request)
    {f : Fields} (hf : Readable defs p f) {r : Reader} (ha : f.Attachment.content = some r) (c : Client) (hc : NoWriteError c) :
    ∃ text bytes msg, (d.write F p req f c).client.written = c.written ++ text ∧ NoWriteError (d.write F p req f c).client ∧
      (d.write F p req f c).out = .done none ∧ text.flatten = d.buff ++ bytes ∧
      (∀ more, readReply req.Method (bytes ++ more) = some (msg, more)) ∧ msg.version = version ∧ msg.code = f.Code ∧
      msg.rest = (if req.Method = .HEAD then [] else readerData r) ∧
      SaysFields defs f msg.fields := by
  obtain ⟨hpp, hv⟩ := version_some hp
  obtain ⟨hend, hsz⟩ := hf.attachment r ha
  have hcode : ¬ (f.Code = 204 ∨ f.Code = 304) := by
    intro h
    rw [(hf.noBody h).2] at ha
    cases ha
  have hfr : framingFields ((attachmentFields F defs earlier f).map (fun kv => (kv.1, stripOWS kv.2))) =
      (if f.Attachment.size > 0 then [(b!"Content-Length", decBytes f.Attachment.size.toNat)] else [(b!"Transfer-Encoding", b!"chunked")]) := by
    have hno : NoFraming defs f := hf.framing
    obtain ⟨t1, t2⟩ := framing_own hno earlier F
    show framing _ = _
    simp only [attachmentFields, List.map_append, framing_append]
    have t4 : framing ([(b!"Content-Type", f.ContentType)].map (fun kv => (kv.1, stripOWS kv.2))) = [] :=
      framing_name (k := b!"Content-Type") (v := []) (by decide)
    rw [t1, t2, t4, hno.2.2]
    by_cases hs : f.Attachment.size > 0
    · simp only [if_pos hs, if_true, List.nil_append, List.map_cons, List.map_nil, stripOWS_decBytes]
      have hl : (lower b!"Content-Length" == b!"content-length") = true := by decide
      simp [framing, hl]
    · simp only [if_neg hs]
      decide
  have hmem := mem_ready hr
  dsimp only at hmem
  have hds : d.defaultHeaders = defaultsAfter F defs earlier := hr.defaults
  have htext : attachText F d p f = d.buff ++ (Proto.toBytes p ++ attachHead F (defaultsAfter F defs earlier) f) := by
    rw [attachText, hds, List.append_assoc]
  have hw1 : (c.write (attachText F d p f)).2.written = c.written ++ [attachText F d p f] := rfl
  obtain ⟨hok, hno⟩ := write_noError hc (attachText F d p f)
  have hpre : SaysFields defs f ((attachmentFields F defs earlier f).map (fun kv => (kv.1, stripOWS kv.2))) := by
    refine ⟨defs.filter (fun d => !(earlier ++ f.Headers).any (fun h => F.eq d.1 h.Key)), List.filter_sublist, ?_⟩
    simp only [attachmentFields, ha, if_pos hf.framing.2.2, List.nil_append, List.append_assoc]
  rw [write_attachment F d p req f c r ha]
  simp only
  cases hw : c.write (attachText F d p f) with
  | mk e c1 =>
    rw [hw] at hok hno hw1
    simp only at hok hno hw1
    subst hok
    simp only
    by_cases hm : req.Method = .HEAD
    · rw [if_pos hm, if_pos hm]
      refine ⟨[attachText F d p f], Proto.toBytes p ++ attachHead F (defaultsAfter F defs earlier) f,
        { version, code := f.Code, reason := reasonFor f,
          fields := (attachmentFields F defs earlier f).map (fun kv => (kv.1, stripOWS kv.2)), rest := [] }, hw1, hno, rfl, by simp [htext], ?_, rfl, rfl, rfl, hpre⟩
      intro more
      unfold readReply
      rw [read_attach F hd earlier hf.clean hpp more, ← hv]
      simp only [bodiless, hm, decide_true, Bool.true_or, if_true]
    · simp only [if_neg hm, stream]
      have hbody := readReply_plain.bodied hf.final hm hcode
      rcases hsz with ⟨hs, hlen, halone⟩ | ⟨hs, hver⟩
      · rw [if_pos hs] at hfr ⊢
        generalize (if d.fileBuff.length = 0 then List.replicate d.fileBuffSize 0 else d.fileBuff) = mem at hmem
        have h16 : 1 ≤ mem.length := by rw [hmem]; split <;> omega
        obtain ⟨parts, hps, hst⟩ := writePlainBody_spec (readerSize r) mem r c1 (Nat.le_refl _) h16 halone
        obtain ⟨ws, hws, _, _, hfull⟩ := hst.written
        have hfull := hfull hno
        refine ⟨attachText F d p f :: ws, Proto.toBytes p ++ attachHead F (defaultsAfter F defs earlier) f ++ ws.flatten,
          { version, code := f.Code, reason := reasonFor f, fields := (attachmentFields F defs earlier f).map (fun kv => (kv.1, stripOWS kv.2)), rest := readerData r },
          by rw [hws, hw1]; simp, (hst.out hno).2, by rw [(hst.out hno).1, hend]; simp [endOut], by simp [htext], ?_, rfl, rfl, rfl, hpre⟩
        · intro more
          unfold readReply
          rw [List.append_assoc _ ws.flatten, read_attach F hd earlier hf.clean hpp, ← hv]
          simp only [hbody, hfr]
          rw [if_neg (by decide), if_neg (by decide), readDecimal_decBytes, hfull, hps, hlen]
          simp only [Int.toNat_natCast, List.length_append, Nat.le_add_right, if_true]
          rw [List.take_left, List.drop_left]
      · rw [if_neg (show ¬ f.Attachment.size > 0 by omega)] at hfr ⊢
        generalize (if d.fileBuff.length = 0 then List.replicate d.fileBuffSize 0 else d.fileBuff) = mem at hmem
        have h16 : 16 ≤ mem.length ∧ mem.length < 16 ^ 8 := by rw [hmem]; split <;> omega
        obtain ⟨chunks, hcs, hne, hst⟩ := writeChunkedBody_spec (readerSize r) mem r c1 (Nat.le_refl _) h16.1 h16.2
        obtain ⟨ws, hws, _, _, hfull⟩ := hst.written
        have hfull := hfull hno
        have hflat : ws.flatten = chunks.flatMap frame ++ b!"0\r\n\r\n" := by
          rw [hfull, hend]; simp [fullChunked, List.flatMap]
        refine ⟨attachText F d p f :: ws, Proto.toBytes p ++ attachHead F (defaultsAfter F defs earlier) f ++ ws.flatten,
          { version, code := f.Code, reason := reasonFor f, fields := (attachmentFields F defs earlier f).map (fun kv => (kv.1, stripOWS kv.2)), rest := readerData r },
          by rw [hws, hw1]; simp, (hst.out hno).2, by rw [(hst.out hno).1, hend]; simp [endOut], by simp [htext], ?_, rfl, rfl, rfl, hpre⟩
        · intro more
          unfold readReply
          rw [List.append_assoc _ ws.flatten, read_attach F hd earlier hf.clean hpp, ← hv]
          simp only [hbody, hfr]
          have hver' : (Proto.toBytes p).dropLast ≠ b!"HTTP/1.0" := by
            rcases hpp with rfl | rfl | rfl
            · exact absurd rfl hver
            · decide
            · decide
          rw [if_neg (by decide), if_pos (by decide), if_pos ⟨by decide, hver'⟩, hflat, crun_coding false (frames_coding chunks hne), hcs]
          rfl

/-- A response, read from the stream in which it was written, after what had been in the buffer, whatever comes after it. -/
theorem readReply_loaded (F : Fold) {defs : List (Bytes × Bytes)} (hd : DefaultsOK F defs) {n : Int} (hn : n < 16 ^ 8) {earlier : List Pair}
    {d : Serializer} (hr : Serializer.Ready F n defs earlier { d with buff := [] }) {p : Proto} {version : Bytes} (hp : versionName p = some version) (req : Request)
    {f : Fields} (hf : Readable defs p f) (c : Client) (hc : NoWriteError c) :
    ∃ text bytes msg, (d.write F p req f c).client.written = c.written ++ text ∧ NoWriteError (d.write F p req f c).client ∧
      (d.write F p req f c).out ≠ .panic ∧ (f.Attachment.content ≠ none → (d.write F p req f c).out = .done none) ∧ text.flatten = d.buff ++ bytes ∧
      (∀ more, readReply req.Method (bytes ++ more) = some (msg, more)) ∧ msg.version = version ∧ msg.code = f.Code ∧
      msg.rest = (if req.Method = .HEAD then [] else sentBody f) ∧
      SaysFields defs f msg.fields := by
  unfold sentBody
  cases ha : f.Attachment.content with
  | none =>
    obtain ⟨text, bytes, msg, h1, h2, h3, h4⟩ := readReply_plain F hd hr hp req hf ha c hc
    exact ⟨text, bytes, msg, h1, h2, h3, fun h => absurd rfl h, h4⟩
  | some r =>
    obtain ⟨text, bytes, msg, h1, h2, h3, h4⟩ := readReply_attached F hd hn hr hp req hf ha c hc
    exact ⟨text, bytes, msg, h1, h2, by rw [h3]; simp, fun _ => h3, h4⟩

/-- A response, read from the stream in which it was written, whatever comes after it. -/
theorem readReply_always (F : Fold) {defs : List (Bytes × Bytes)} (hd : DefaultsOK F defs) {n : Int} (hn : n < 16 ^ 8) {earlier : List Pair}
    {d : Serializer} (hr : Serializer.Ready F n defs earlier d) {p : Proto} {version : Bytes} (hp : versionName p = some version) (req : Request)
    {f : Fields} (hf : Readable defs p f) (c : Client) (hc : NoWriteError c) :
    ∃ text msg, (d.write F p req f c).client.written = c.written ++ text ∧ NoWriteError (d.write F p req f c).client ∧
      (d.write F p req f c).out ≠ .panic ∧ (f.Attachment.content ≠ none → (d.write F p req f c).out = .done none) ∧
      (∀ more, readReply req.Method (text.flatten ++ more) = some (msg, more)) ∧ msg.version = version ∧ msg.code = f.Code ∧
      msg.rest = (if req.Method = .HEAD then [] else sentBody f) ∧
      SaysFields defs f msg.fields := by
  obtain ⟨text, bytes, msg, h1, h2, h3, h4, h5, h6⟩ := readReply_loaded F hd hn (d := d) ⟨rfl, hr.defaults, hr.size, hr.mem⟩ hp req hf c hc
  rw [hr.buff, List.nil_append] at h5
  exact ⟨text, msg, h1, h2, h3, h4, by rw [h5]; exact h6⟩

/-- A response, read from the stream in which it was written. -/
theorem readReply_readable (F : Fold) {defs : List (Bytes × Bytes)} (hd : DefaultsOK F defs) {n : Int} (hn : n < 16 ^ 8) {earlier : List Pair}
    {d : Serializer} (hr : Serializer.Ready F n defs earlier d) {p : Proto} {version : Bytes} (hp : versionName p = some version) (req : Request)
    {f : Fields} (hf : Readable defs p f) (c : Client) (hc : NoWriteError c) (more : Bytes) :
    ∃ text msg, (d.write F p req f c).client.written = c.written ++ text ∧ NoWriteError (d.write F p req f c).client ∧
      (d.write F p req f c).out ≠ .panic ∧ (f.Attachment.content ≠ none → (d.write F p req f c).out = .done none) ∧
      readReply req.Method (text.flatten ++ more) = some (msg, more) ∧ msg.version = version ∧ msg.code = f.Code ∧
      msg.rest = (if req.Method = .HEAD then [] else sentBody f) ∧
      SaysFields defs f msg.fields := by
  obtain ⟨text, msg, h1, h2, h3, h4, h5, h6⟩ := readReply_always F hd hn hr hp req hf c hc
  exact ⟨text, msg, h1, h2, h3, h4, h5 more, h6⟩

theorem routerAfter_nil (E : Setup σ ρ) (st : ρ) : routerAfter E st [] = st := rfl

theorem routerAfter_cons (E : Setup σ ρ) (st : ρ) (r : Request) (history : List Request) :
    routerAfter E st (r :: history) = routerAfter E (E.router.onRequest st r).2 history := rfl

theorem answering_next {version : Request → Proto} {E : Setup σ ρ} {ok : Sending → Prop} {T defs st} (h : AnsweringIn version E ok T defs st) (r : Request) :
    AnsweringIn version E ok T defs (E.router.onRequest st r).2 where
  request history := h.request (r :: history)
  error history := h.error (r :: history)

theorem version_name {v : Bytes} {p : Proto} (h : IsVersion v p) : ∃ n, versionName p = some n := named_version h

theorem conversation_read {E : Setup σ ρ} {T : Nat} {remote tail : Bytes} {post : List (Bytes × Option GoErr)} {n : Int}
    {ok : Sending → Prop} {defs : List (Bytes × Bytes)} (hd : DefaultsOK E.F defs) (hn : n < 16 ^ 8)
    {env st d pre ws ss vs frames why} (h : Conversation E T remote tail post (Silence E) env st d pre ws ss vs frames why) :
    ∀ earlier, Serializer.Ready E.F n defs earlier d → NoWriteError { wscript := ws } → Answering E ok T defs st → (∀ s ∈ ss, ok s) →
      (∀ s ∈ ss, s.head.last b!"upgrade" = none) → (∀ s ∈ ss.dropLast, KeepsOpen s.head) →
      ∃ msgs, readReplies (ss.map (fun s => s.head.method)) frames.flatten = some msgs ∧ msgs.length = ss.length ∧
        ∀ i : Nat, ∀ (s : Sending) (m : Msg), ss[i]? = some s → msgs[i]? = some m → Replied E st defs (ss.take i) T remote post s m := by
  induction h with
  | done hs =>
    intro earlier _ _ ans hok _ _
    obtain ⟨seen, a, left, _, ⟨world, hw, told⟩, hm, _⟩ := hs
    have := ans.error [] seen closeError world hw
    rw [routerAfter_nil, told] at this
    rw [hm this]
    exact ⟨[], rfl, rfl, by simp⟩
  | panicked hdl ha =>
    intro earlier _ _ ans hok _ _
    obtain ⟨f, req', left, h1, _⟩ := ans.request [] _ _ _ _ _ _ _ (hok _ (by simp)) hdl
    rw [routerAfter_nil] at h1
    unfold Answers at h1 ha
    rw [h1] at ha
    cases ha
  | hijacked hdl ha _ hh =>
    intro earlier _ _ ans hok _ _
    obtain ⟨f, req', left, h1, h2, _⟩ := ans.request [] _ _ _ _ _ _ _ (hok _ (by simp)) hdl
    rw [routerAfter_nil] at h1
    unfold Answers at h1 ha
    rw [h1] at ha
    cases ha
    rw [h2] at hh; cases hh
  | @broken env st d pre ws s ss seen world f req left w hdl ha hh hw hout =>
    intro earlier hr hws ans hok hup _
    obtain ⟨f', req', left', h1, _, h3, _⟩ := ans.request [] _ _ _ _ _ _ _ (hok _ (by simp)) hdl
    rw [routerAfter_nil] at h1
    unfold Answers at h1 ha
    rw [h1] at ha
    cases ha
    have hup' : seen.Upgrade = Proto.Unknown := by rw [hdl.carries.upgrade, hup s (by simp)]; rfl
    have hopen : opening E.F d pre seen = (seen.Proto, d, pre) := by
      unfold opening; rw [hup', if_neg (by decide)]
    rw [hopen] at hw
    dsimp only at hw
    obtain ⟨v, hv⟩ := version_name hdl.carries.proto
    obtain ⟨_, _, _, _, k, _⟩ := readReply_readable E.F hd hn hr hv req h3 { wscript := ws } hws []
    rw [← hw] at k
    exact absurd hout k
  | @closed env st d pre ws s ss seen world f req left w e seen' a left' more hdl ha hh hw hout told hm =>
    intro earlier hr hws ans hok hup hkeep
    obtain ⟨f', req', left1, h1, _, h3, h4, h5, h6⟩ := ans.request [] _ _ _ _ _ _ _ (hok _ (by simp)) hdl
    rw [routerAfter_nil] at h1
    have ha0 := ha
    unfold Answers at h1 ha
    rw [h1] at ha
    cases ha
    have hup' : seen.Upgrade = Proto.Unknown := by rw [hdl.carries.upgrade, hup s (by simp)]; rfl
    have hopen : opening E.F d pre seen = (seen.Proto, d, pre) := by
      unfold opening; rw [hup', if_neg (by decide)]
    rw [hopen] at hw
    dsimp only at hw
    obtain ⟨v, hv⟩ := version_name hdl.carries.proto
    obtain ⟨text, msg, k1, _, _, katt, k2, k3, k4, k5, k6⟩ := readReply_readable E.F hd hn hr hv req h3 { wscript := ws } hws []
    rw [← hw] at k1 katt
    have hatt : f.Attachment.content = none := by
      cases hx : f.Attachment.content with
      | none => rfl
      | some r =>
        rw [katt (by rw [hx]; simp)] at hout
        cases hout
    have hss : ss = [] := by
      cases ss with
      | nil => rfl
      | cons s2 ss =>
        exfalso
        have hk := hkeep s (by simp)
        have := (C31_keep_alive_partial E.F d seen.Proto req (by
          rw [h5, hdl.carries.connection]; exact hk.token) (h6.trans hup') f hatt { wscript := ws } hws).1
        rw [h5, hdl.carries.connection, hk.connection _ hdl.carries.proto, ← hw, hout] at this
        cases this
    subst hss
    obtain ⟨world', hw', told⟩ := told
    have hm' : more = [] := hm (by
      have := ans.error [seen] seen' closeError world' hw'
      rw [show routerAfter E _ [seen] = (E.router.onRequest st seen).2 from rfl, told] at this
      exact this)
    have hmeth : req.Method = s.head.method := h4.trans hdl.carries.method
    refine ⟨[msg], ?_, rfl, ?_⟩
    · rw [k1, hm']
      simp only [List.map_cons, List.map_nil, readReplies, List.nil_append, List.append_nil]
      rw [← hmeth, show text.flatten = text.flatten ++ [] by simp, k2]
      rfl
    · intro i s0 m0 hi hm0
      cases i with
      | zero =>
        simp at hi hm0
        subst hi hm0
        refine ⟨[], _, _, _, _, _, _, _, ⟨rfl, by simp⟩, hdl, ha0, ?_, k4, ?_, k6⟩
        · rw [hv, k3]
        · rw [k5, hmeth]
      | succ i => simp at hi
  | @next env st d pre ws s ss seen world f req left w vs frames why hdl ha hh hw hout _ ih =>
    intro earlier hr hws ans hok hup hkeep
    obtain ⟨f', req', left1, h1, _, h3, h4, h5, h6⟩ := ans.request [] _ _ _ _ _ _ _ (hok _ (by simp)) hdl
    rw [routerAfter_nil] at h1
    have ha0 := ha
    unfold Answers at h1 ha
    rw [h1] at ha
    cases ha
    have hup' : seen.Upgrade = Proto.Unknown := by rw [hdl.carries.upgrade, hup s (by simp)]; rfl
    have hopen : opening E.F d pre seen = (seen.Proto, d, pre) := by
      unfold opening; rw [hup', if_neg (by decide)]
    rw [hopen] at hw
    dsimp only at hw
    obtain ⟨v, hv⟩ := version_name hdl.carries.proto
    obtain ⟨text, msg, k1, kw, _, _, k2, k3, k4, k5, k6⟩ := readReply_readable E.F hd hn hr hv req h3 { wscript := ws } hws frames.flatten
    rw [← hw] at k1 kw
    have hr' : Serializer.Ready E.F n defs (earlier ++ f.Headers) w.ser := by rw [hw]; exact ready_write hd.distinct hr _ _ _ _
    obtain ⟨msgs, m1, m2, m3⟩ := ih _ hr' kw (answering_next ans seen) (fun s hs => hok s (by simp [hs])) (fun s hs => hup s (by simp [hs]))
      (fun s1 hs => hkeep s1 (by
        cases ss with
        | nil => simp at hs
        | cons s2 ss => simp only [List.dropLast_cons_cons]; exact List.mem_cons_of_mem _ hs))
    have hmeth : req.Method = s.head.method := h4.trans hdl.carries.method
    refine ⟨msg :: msgs, ?_, by simp [m2], ?_⟩
    · rw [k1]
      simp only [List.map_cons, readReplies, List.nil_append, List.flatten_append]
      rw [← hmeth, k2]
      simp [m1]
    · intro i s0 m0 hi hm0
      cases i with
      | zero =>
        simp at hi hm0
        subst hi hm0
        refine ⟨[], _, _, _, _, _, _, _, ⟨rfl, by simp⟩, hdl, ha0, ?_, k4, ?_, k6⟩
        · rw [hv, k3]
        · rw [k5, hmeth]
      | succ i =>
        obtain ⟨history, a1, a2, a3, a4, a5, a6, a7, hl, rest⟩ := m3 i s0 m0 (by simpa using hi) (by simpa using hm0)
        refine ⟨seen :: history, a1, a2, a3, a4, a5, a6, a7, ⟨by simp [hl.1], ?_⟩, rest⟩
        intro j s1 r1 hs1 hr1
        cases j with
        | zero =>
          simp at hs1 hr1
          subst hs1 hr1
          exact ⟨_, _, _, hdl⟩
        | succ j => exact hl.2 j s1 r1 (by simpa using hs1) (by simpa using hr1)

/-- **C71**, for requests which satisfy `ok` besides being well-formed, and handlers which answer those. A client sends requests, one after another, in any segmentation, without waiting for responses; they are
well-formed and within the limits, and each except perhaps the last one leaves the connection open. Then, if the handlers
answer with responses which say how long they are (with a body, or with an attachment), what comes back is a sequence of responses, one for each request and nothing else, which an
independent reader of HTTP/1.x splits correctly: the i-th one is the handler's answer to the i-th request (`Replied`). -/
theorem C71_replies_readable_for (E : Setup σ ρ) (dec : DecodesChunked E.P) (cfg : Config)
    (size : cfg.bodyMaxSize < 2 ^ 64) (defaults : DefaultsOK E.F (cfg.defaultHeaders.getD [])) (enc : EncToken) (remote : Bytes)
    (st : ρ) (tame : Tame E st) (good : Sending → Prop) (answering : Answering E (fun s => SendableWith E.F cfg s ∧ good s) cfg.maxEncodingTokens.toNat (cfg.defaultHeaders.getD []) st)
    (buffer : cfg.responseBuffSize < 16 ^ 8) (cl : Client) (quiet : Quiet cl) (writes : NoWriteError cl) (post : List (Bytes × Option GoErr)) (silent : Silent post)
    (ss : List Sending) (ok : ∀ s ∈ ss, SendableWith E.F cfg s ∧ good s) (stream : cl.stream = ss.flatMap Sending.bytes)
    (upgrade : ∀ s ∈ ss, s.head.last b!"upgrade" = none) (keep : ∀ s ∈ ss.dropLast, KeepsOpen s.head) :
    ∃ frames msgs,
      (serve E (newConn E.P cfg enc remote st (followedBy cl post))).1.client.written = cl.written ++ frames ∧
      readReplies (ss.map (fun s => s.head.method)) frames.flatten = some msgs ∧ msgs.length = ss.length ∧
      ∀ i : Nat, ∀ (s : Sending) (m : Msg), ss[i]? = some s → msgs[i]? = some m →
        Replied E st (cfg.defaultHeaders.getD []) (ss.take i) cfg.maxEncodingTokens.toNat remote post s m := by
  obtain ⟨c, why, vs, frames, h1, _, h2, h3⟩ :=
    C22_pipelining E dec cfg size enc remote st tame cl quiet post silent ss (fun s hs => (ok s hs).1) stream
  have h0 : Serializer.Ready E.F cfg.responseBuffSize (cfg.defaultHeaders.getD []) []
      (Serializer.new cfg.responseBuffSize (cfg.defaultHeaders.getD [])) := by
    refine ⟨rfl, ?_, rfl, Or.inl rfl⟩
    simp [Serializer.new, processDefaultHeaders_eq, defaultsAfter]
  obtain ⟨msgs, k1, k2, k3⟩ := conversation_read (n := cfg.responseBuffSize) defaults buffer h3 [] h0 writes answering ok upgrade keep
  exact ⟨frames, msgs, by rw [h1]; exact h2, k1, k2, k3⟩

/-- **C71.** A client sends requests, one after another, in any segmentation, without waiting for responses; they are
well-formed and within the limits, and each except perhaps the last one leaves the connection open. Then, if the handlers
answer with responses which say how long they are (with a body, or with an attachment), what comes back is a sequence of responses, one for each request and nothing else, which an
independent reader of HTTP/1.x splits correctly: the i-th one is the handler's answer to the i-th request (`Replied`). -/
theorem C71_replies_readable (E : Setup σ ρ) (dec : DecodesChunked E.P) (cfg : Config)
    (size : cfg.bodyMaxSize < 2 ^ 64) (defaults : DefaultsOK E.F (cfg.defaultHeaders.getD [])) (enc : EncToken) (remote : Bytes)
    (st : ρ) (tame : Tame E st) (answering : Answering E (SendableWith E.F cfg) cfg.maxEncodingTokens.toNat (cfg.defaultHeaders.getD []) st)
    (buffer : cfg.responseBuffSize < 16 ^ 8) (cl : Client) (quiet : Quiet cl) (writes : NoWriteError cl) (post : List (Bytes × Option GoErr)) (silent : Silent post)
    (ss : List Sending) (ok : ∀ s ∈ ss, SendableWith E.F cfg s) (stream : cl.stream = ss.flatMap Sending.bytes)
    (upgrade : ∀ s ∈ ss, s.head.last b!"upgrade" = none) (keep : ∀ s ∈ ss.dropLast, KeepsOpen s.head) :
    ∃ frames msgs,
      (serve E (newConn E.P cfg enc remote st (followedBy cl post))).1.client.written = cl.written ++ frames ∧
      readReplies (ss.map (fun s => s.head.method)) frames.flatten = some msgs ∧ msgs.length = ss.length ∧
      ∀ i : Nat, ∀ (s : Sending) (m : Msg), ss[i]? = some s → msgs[i]? = some m →
        Replied E st (cfg.defaultHeaders.getD []) (ss.take i) cfg.maxEncodingTokens.toNat remote post s m := by
  refine C71_replies_readable_for E dec cfg size defaults enc remote st tame (fun _ => True) ⟨?_, answering.error⟩ buffer cl quiet writes
    post silent ss (fun s hs => ⟨ok s hs, trivial⟩) stream upgrade keep
  intro history remote post env s after req world h del
  exact answering.request history remote post env s after req world h.1 del

/-! ### The hypotheses are met, and are needed -/

theorem default_defaults : DefaultsOK Fold.ascii (Config.default.defaultHeaders.getD []) := by
  constructor
  · unfold NameOK NoBreak; decide +kernel
  · decide +kernel

theorem noBreak_html : NoBreak b!"text/html" := by unfold NoBreak; decide
theorem noBreak_nil : NoBreak [] := by unfold NoBreak; decide

theorem report_plain (p : Proto) (b : Bytes) : Readable (Config.default.defaultHeaders.getD []) p (Fields.new.bytes b) where
  clean := ⟨by simp [Fields.new, Fields.bytes], noBreak_html, noBreak_nil, by simp [Fields.new, Fields.bytes]⟩
  attachment _ h := by cases h
  framing := ⟨by simp [Fields.new, Fields.bytes], by decide +kernel, rfl⟩
  final := by show 200 ≤ 200; decide
  noBody h := absurd h (by show ¬ (200 = 204 ∨ 200 = 304); decide)

theorem failed_plain (p : Proto) : Readable (Config.default.defaultHeaders.getD []) p (Fields.new.code 500) where
  clean := ⟨by simp [Fields.new, Fields.code], noBreak_html, noBreak_nil, by simp [Fields.new, Fields.code]⟩
  attachment _ h := by cases h
  framing := ⟨by simp [Fields.new, Fields.code], by decide +kernel, rfl⟩
  final := by decide
  noBody _ := ⟨rfl, rfl⟩

/-- The handlers of the examples answer with readable responses. -/
theorem report_answering :
    Answering simple (SendableWith simple.F Config.default) Config.default.maxEncodingTokens.toNat (Config.default.defaultHeaders.getD []) ⟨report, reportError⟩ where
  request := by
    intro history remote post env s after req world ok del
    rw [simple_state]
    have hno : (Body.call refParser (2 ^ 32) world Body.Call.bytes).1 ≠ .panic := by
      obtain ⟨b, hb, _⟩ := del.fresh
      have hlim : world.1.isChunked = true ∨ world.1.contentLength ≤ 2 ^ 32 := by
        cases ok.framed with
        | sized _ _ h2 =>
          right
          have h1 := del.carries.contentLength
          have h3 : s.body.length ≤ 536870912 := ok.body
          rw [hb]
          show (b.initFor req).contentLength ≤ _
          have : (b.initFor req).contentLength = req.ContentLength := by unfold Body.initFor; dsimp only; split <;> rfl
          have h4 : ((decimal s.head.lengthDigits : Int) % ((2 ^ 64 : Nat) : Int)) = s.body.length := by
            rw [← Int.natCast_emod]; exact congrArg Nat.cast h2
          rw [this, h1, ← Int.emod_bmod, h4, Int.bmod_eq_of_le (by omega) (by omega)]
          omega
        | chunked chunks h1 _ _ =>
          left
          have : (b.initFor req).isChunked = req.Encoding.Chunked := by unfold Body.initFor; dsimp only; split <;> rfl
          rw [hb, this, del.carries.chunked, del.carries.transfer]
          exact h1
      unfold Body.call Body.bytes
      dsimp only
      by_cases he : world.1.eof
      · rw [if_pos he]; simp
      · rw [if_neg he, if_neg (by
          rintro ⟨h1, _, h2⟩
          rcases hlim with h | h
          · exact h1 h
          · have : ((2 ^ 32 : Nat) : Int) = 2 ^ 32 := by decide
            omega)]
        simp
    unfold Answers
    change ∃ f req' left, Act.run refParser (2 ^ 32) (Act.bind (Act.body .bytes _) _) _ = _ ∧ _
    simp only [Act.bind, Act.run]
    rw [show (world.1, world.2) = world from rfl]
    generalize Body.call refParser (2 ^ 32) world Body.Call.bytes = a at hno ⊢
    obtain ⟨a, w⟩ := a
    cases a <;> first
      | exact absurd rfl hno
      | exact ⟨_, req, ⟨w.1, w.2, false⟩, rfl, rfl, report_plain _ _, rfl, rfl, rfl⟩
      | exact ⟨_, req, ⟨w.1, w.2, false⟩, rfl, rfl, failed_plain _, rfl, rfl, rfl⟩
  error := by
    intro history req e world hw
    rw [simple_state]
    exact hw

/-- C71: the three requests of the example above, and what a client reads. -/
example : ∃ cl : Client, Quiet cl ∧ NoWriteError cl ∧ cl.stream = [posted, chunked, gotten].flatMap Sending.bytes ∧
    (∀ s ∈ [posted, chunked, gotten], s.head.last b!"upgrade" = none) ∧
    (∀ s ∈ [posted, chunked, gotten].dropLast, KeepsOpen s.head) ∧
    (readReplies [.POST, .POST, .GET]
      (serve simple (newConn simple.P Config.default 1 b!"1.2.3.4" ⟨report, reportError⟩ (followedBy cl []))).1.client.written.flatten).map
      (List.map (fun m => (m.version, m.code, m.rest))) =
      some [(b!"HTTP/1.1", 200, b!"/a hello"), (b!"HTTP/1.1", 200, b!"/b c hello"), (b!"HTTP/1.0", 200, b!"/ ")] := by
  refine ⟨arrive [posted.bytes.take 41, posted.bytes.drop 41 ++ chunked.bytes.take 55, chunked.bytes.drop 55 ++ gotten.bytes],
    ?_, by simp [NoWriteError, arrive], by decide +kernel, by decide, ?_, by decide +kernel⟩
  · unfold Quiet; decide +kernel
  · intro s hs
    simp only [List.dropLast, List.mem_cons, List.not_mem_nil, or_false] at hs
    rcases hs with rfl | rfl <;>
    · refine ⟨by decide, ?_, by decide⟩
      rintro p ⟨sep, ⟨h, rfl⟩ | ⟨h, rfl⟩ | ⟨h, rfl⟩⟩
      · simp [posted, chunked] at h
      · decide
      · simp [posted, chunked] at h

/-- A handler which answers with a body and a code which forbids one. -/
def mute : Router.Handler Act := fun r => pure ((Fields.new.code 204).bytes b!"none", r)

/-- **C71** is false for codes which forbid a body: the body is sent nevertheless, and the client takes it for the
beginning of the next response. -/
theorem C71_no_content_violation :
    let r := exchange mute 0 [b!"GET / HTTP/1.1\r\n\r\n", b!"GET / HTTP/1.1\r\n\r\n"]
    readReplies [.GET, .GET] r.1.flatten = none ∧
    (r.1.map (readReply .GET)).map (Option.map (fun m => (m.1.code, m.2))) = [some (204, b!"none"), some (204, b!"none")] := by
  decide +kernel

end Indigo.Props
