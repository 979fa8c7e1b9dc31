/-
C32, C41: a client can read the response to a malformed head, after those to its requests.
-/
import Verif.Props.Replies
import Verif.Props.Outcome
import Verif.Spec.Rejected

namespace Indigo.Props
open Indigo.Serve Indigo.Spec Indigo.Serializer
variable {σ ρ : Type}

/-- Reading the responses of a conversation which ends in some other way than by silence: `fin` are the methods of what is answered at its end. -/
theorem conversation_read_end {E : Setup σ ρ} {T : Nat} {remote tail : Bytes} {post : List (Bytes × Option GoErr)} {n : Int}
    {End : Environment → ρ → Serializer → Fields → List (Option GoErr) → List (Visit σ) → List Bytes → Ended → Prop}
    {ok : Sending → Prop} {defs : List (Bytes × Bytes)} (hd : DefaultsOK E.F defs) (hn : n < 16 ^ 8)
    {fin : List Method} {Last : List Request → List Msg → Prop}
    {env st d pre ws ss vs frames why} (h : Conversation E T remote tail post End env st d pre ws ss vs frames why) :
    ∀ earlier st0 past, st = routerAfter E st0 past →
      (∀ history env d pre ws vs frames why earlier, End env (routerAfter E st0 history) d pre ws vs frames why →
        Serializer.Ready E.F n defs earlier d → NoWriteError { wscript := ws } →
        ∃ msgs, readReplies fin frames.flatten = some msgs ∧ Last history msgs) →
      Serializer.Ready E.F n defs earlier d → NoWriteError { wscript := ws } → Answering E ok T defs st → (∀ s ∈ ss, ok s) →
      (∀ s ∈ ss, KeepsOpen s.head) →
      ∃ msgs history last, readReplies (ss.map (fun s => s.head.method) ++ fin) frames.flatten = some (msgs ++ last) ∧ msgs.length = ss.length ∧
        (∀ i : Nat, ∀ (s : Sending) (m : Msg), ss[i]? = some s → msgs[i]? = some m → Replied E st defs (ss.take i) T remote post s m) ∧
        HeardBefore E T remote post ss history ∧ Last (past ++ history) last := by
  induction h with
  | done hs =>
    intro earlier st0 past hst hend hr hws ans hok _
    rw [hst] at hs
    obtain ⟨msgs, h1, h2⟩ := hend past _ _ _ _ _ _ _ earlier hs hr hws
    exact ⟨[], [], msgs, h1, rfl, by simp, ⟨rfl, by simp⟩, by simpa using h2⟩
  | panicked hdl ha =>
    intro earlier st0 past hst hend _ _ ans hok _
    obtain ⟨f, req', left, h1, _⟩ := ans.request [] _ _ _ _ _ _ _ (hok _ (by simp)) hdl
    rw [routerAfter_nil] at h1
    unfold Answers at h1 ha
    rw [h1] at ha
    cases ha
  | hijacked hdl ha _ hh =>
    intro earlier st0 past hst hend _ _ ans hok _
    obtain ⟨f, req', left, h1, h2, _⟩ := ans.request [] _ _ _ _ _ _ _ (hok _ (by simp)) hdl
    rw [routerAfter_nil] at h1
    unfold Answers at h1 ha
    rw [h1] at ha
    cases ha
    rw [h2] at hh; cases hh
  | @broken env st d pre ws s ss seen world f req left w hdl ha hh hw hout =>
    intro earlier st0 past hst hend hr hws ans hok hup
    obtain ⟨f', req', left', h1, _, h3, _⟩ := ans.request [] _ _ _ _ _ _ _ (hok _ (by simp)) hdl
    rw [routerAfter_nil] at h1
    unfold Answers at h1 ha
    rw [h1] at ha
    cases ha
    have hup' : seen.Upgrade = Proto.Unknown := by rw [hdl.carries.upgrade, (hup s (by simp)).upgrade]; rfl
    have hopen : opening E.F d pre seen = (seen.Proto, d, pre) := by
      unfold opening; rw [hup', if_neg (by decide)]
    rw [hopen] at hw
    dsimp only at hw
    obtain ⟨v, hv⟩ := version_name hdl.carries.proto
    obtain ⟨_, _, _, _, k, _⟩ := readReply_readable E.F hd hn hr hv req h3 { wscript := ws } hws []
    rw [← hw] at k
    exact absurd hout k
  | @closed env st d pre ws s ss seen world f req left w e seen' a left' more hdl ha hh hw hout told hm =>
    intro earlier st0 past hst hend hr hws ans hok hup
    obtain ⟨f', req', left1, h1, _, h3, h4, h5, h6⟩ := ans.request [] _ _ _ _ _ _ _ (hok _ (by simp)) hdl
    rw [routerAfter_nil] at h1
    have ha0 := ha
    unfold Answers at h1 ha
    rw [h1] at ha
    cases ha
    have hup' : seen.Upgrade = Proto.Unknown := by rw [hdl.carries.upgrade, (hup s (by simp)).upgrade]; rfl
    have hopen : opening E.F d pre seen = (seen.Proto, d, pre) := by
      unfold opening; rw [hup', if_neg (by decide)]
    rw [hopen] at hw
    dsimp only at hw
    obtain ⟨v, hv⟩ := version_name hdl.carries.proto
    obtain ⟨text, msg, k1, _, _, katt, k2, k3, k4, k5, k6⟩ := readReply_readable E.F hd hn hr hv req h3 { wscript := ws } hws []
    rw [← hw] at k1 katt
    have hatt : f.Attachment.content = none := by
      cases hx : f.Attachment.content with
      | none => rfl
      | some r =>
        rw [katt (by rw [hx]; simp)] at hout
        cases hout
    exfalso
    have hk := hup s (by simp)
    have := (C31_keep_alive_partial E.F d seen.Proto req (by
      rw [h5, hdl.carries.connection]; exact hk.token) (h6.trans hup') f hatt { wscript := ws } hws).1
    rw [h5, hdl.carries.connection, hk.connection _ hdl.carries.proto, ← hw, hout] at this
    cases this
  | @next env st d pre ws s ss seen world f req left w vs frames why hdl ha hh hw hout _ ih =>
    intro earlier st0 past hst hend hr hws ans hok hup
    obtain ⟨f', req', left1, h1, _, h3, h4, h5, h6⟩ := ans.request [] _ _ _ _ _ _ _ (hok _ (by simp)) hdl
    rw [routerAfter_nil] at h1
    have ha0 := ha
    unfold Answers at h1 ha
    rw [h1] at ha
    cases ha
    have hup' : seen.Upgrade = Proto.Unknown := by rw [hdl.carries.upgrade, (hup s (by simp)).upgrade]; rfl
    have hopen : opening E.F d pre seen = (seen.Proto, d, pre) := by
      unfold opening; rw [hup', if_neg (by decide)]
    rw [hopen] at hw
    dsimp only at hw
    obtain ⟨v, hv⟩ := version_name hdl.carries.proto
    obtain ⟨text, msg, k1, kw, _, _, k2, k3, k4, k5, k6⟩ := readReply_readable E.F hd hn hr hv req h3 { wscript := ws } hws frames.flatten
    rw [← hw] at k1 kw
    have hr' : Serializer.Ready E.F n defs (earlier ++ f.Headers) w.ser := by rw [hw]; exact ready_write hd.distinct hr _ _ _ _
    obtain ⟨msgs, history, last, m1, m2, m3, m4, m5⟩ := ih _ st0 (past ++ [seen]) (by rw [hst]; simp [routerAfter]) hend hr' kw (answering_next ans seen)
      (fun s hs => hok s (by simp [hs])) (fun s hs => hup s (by simp [hs]))
    have hmeth : req.Method = s.head.method := h4.trans hdl.carries.method
    refine ⟨msg :: msgs, seen :: history, last, ?_, by simp [m2], ?_, ⟨by simp [m4.1], ?_⟩, by simpa using m5⟩
    · rw [k1]
      simp only [List.map_cons, List.cons_append, readReplies, List.nil_append, List.flatten_append]
      rw [← hmeth, k2]
      simp [m1]
    · intro i s0 m0 hi hm0
      cases i with
      | zero =>
        simp at hi hm0
        subst hi hm0
        refine ⟨[], _, _, _, _, _, _, _, ⟨rfl, by simp⟩, hdl, ha0, ?_, k4, ?_, k6⟩
        · rw [hv, k3]
        · rw [k5, hmeth]
      | succ i =>
        obtain ⟨history, a1, a2, a3, a4, a5, a6, a7, hl, rest⟩ := m3 i s0 m0 (by simpa using hi) (by simpa using hm0)
        refine ⟨seen :: history, a1, a2, a3, a4, a5, a6, a7, ⟨by simp [hl.1], ?_⟩, rest⟩
        intro j s1 r1 hs1 hr1
        cases j with
        | zero =>
          simp at hs1 hr1
          subst hs1 hr1
          exact ⟨_, _, _, hdl⟩
        | succ j => exact hl.2 j s1 r1 (by simpa using hs1) (by simpa using hr1)
    · intro j s1 r1 hs1 hr1
      cases j with
      | zero =>
        simp at hs1 hr1
        subst hs1 hr1
        exact ⟨_, _, _, hdl⟩
      | succ j => exact m4.2 j s1 r1 (by simpa using hs1) (by simpa using hr1)

theorem section_not_long {L : Limits} {a b n : Nat} {s : Bytes} {e : Status.HTTPError} (h : SectionFault L a b n s e) : e ≠ Status.ErrTooLongRequestLine := by
  induction h with
  | next _ _ _ _ _ _ _ _ _ _ ih => exact ih
  | _ => decide

theorem fault_not_long {L : Limits} {s : Bytes} {e : Status.HTTPError} (h : HeadFault L s e) : e ≠ Status.ErrTooLongRequestLine := by
  cases h with
  | noMethod => decide
  | unknownMethod => decide
  | line _ _ _ _ _ _ _ hl => cases hl <;> decide
  | fields _ _ _ _ _ _ hs => exact section_not_long hs

/-- **C32.** A client sends well-formed requests, one after another, in any segmentation, each of which leaves the connection open, and then a malformed or
over-limit head (with anything behind it), in which a method is named and whose fault is not the version. If the handlers and the error handler answer with responses which say how long they are, then what comes back is a sequence of
responses, one for each of the requests and one for the malformed head, and nothing else; an independent reader of HTTP/1.x splits it correctly; the last one is what the error handler answers, being told about this fault (`Refused`), the others are the answers to the
requests (`Replied`). -/
theorem C32_reply_readable (E : Setup σ ρ) (dec : DecodesChunked E.P) (cfg : Config)
    (size : cfg.bodyMaxSize < 2 ^ 64) (defaults : DefaultsOK E.F (cfg.defaultHeaders.getD [])) (enc : EncToken) (remote : Bytes)
    (st : ρ) (tame : Tame E st) (good : Sending → Prop) (answering : Answering E (fun s => SendableWith E.F cfg s ∧ good s) cfg.maxEncodingTokens.toNat (cfg.defaultHeaders.getD []) st)
    (buffer : cfg.responseBuffSize < 16 ^ 8) (cl : Client) (quiet : Quiet cl) (writes : NoWriteError cl) (post : List (Bytes × Option GoErr))
    (ss : List Sending) (ok : ∀ s ∈ ss, SendableWith E.F cfg s ∧ good s) (keep : ∀ s ∈ ss, KeepsOpen s.head)
    (bad : Bytes) (e : Status.HTTPError) (fits : RequestLineFits (headLimits cfg).line bad) (clean : CleanStream bad)
    (fault : HeadFault (headLimits cfg) bad e) (version : e ≠ Status.ErrUnsupportedProtocol) (meth : Method) (named : NamesMethod bad meth)
    (excusing : Excusing E (cfg.defaultHeaders.getD []) e st)
    (stream : cl.stream = ss.flatMap Sending.bytes ++ bad) :
    ∃ frames msgs last,
      (serve E (newConn E.P cfg enc remote st (followedBy cl post))).1.client.written = cl.written ++ frames ∧
      readReplies (ss.map (fun s => s.head.method) ++ [meth]) frames.flatten = some (msgs ++ [last]) ∧ msgs.length = ss.length ∧
      (∀ i : Nat, ∀ (s : Sending) (m : Msg), ss[i]? = some s → msgs[i]? = some m →
        Replied E st (cfg.defaultHeaders.getD []) (ss.take i) cfg.maxEncodingTokens.toNat remote post s m) ∧
      Refused E st (cfg.defaultHeaders.getD []) ss (headLimits cfg) cfg.maxEncodingTokens.toNat remote post bad meth e last := by
  obtain ⟨c, why, vs, frames, h1, _, h2, h3⟩ :=
    C32_malformed_partial E dec cfg size enc remote st tame cl quiet post ss (fun s hs => (ok s hs).1) bad e fits clean fault stream
  have h0 : Serializer.Ready E.F cfg.responseBuffSize (cfg.defaultHeaders.getD []) []
      (Serializer.new cfg.responseBuffSize (cfg.defaultHeaders.getD [])) := by
    refine ⟨rfl, ?_, rfl, Or.inl rfl⟩
    simp [Serializer.new, processDefaultHeaders_eq, defaultsAfter]
  obtain ⟨msgs, history, last, k1, k2, k3, k4, m, rfl, k5⟩ := conversation_read_end (n := cfg.responseBuffSize) (fin := [meth])
    (Last := fun history msgs => ∃ m, msgs = [m] ∧ ∃ seen f req left, AtFault E.F (headLimits cfg) cfg.maxEncodingTokens.toNat bad remote e seen ∧
      Told E (routerAfter E st history) seen (.http e) (some (f, req), left) ∧
      versionName seen.Proto = some m.version ∧ m.code = f.Code ∧
      m.rest = (if meth = .HEAD then [] else sentBody f) ∧ SaysFields (cfg.defaultHeaders.getD []) f m.fields)
    defaults buffer h3 [] st [] rfl (by
      rintro history env d pre ws vs frames why earlier ⟨seen, ans, left, more, hat, -, ⟨world, hw, told⟩, -, hm, hans⟩ hr hws
      obtain ⟨f, req, left', g1, g2, g3, g4, g5⟩ := excusing history seen world hw
      have told0 := told
      rw [g1] at told
      cases told
      obtain ⟨w, rfl, hfr, -⟩ := hans
      obtain ⟨rfl, hws'⟩ := hm g2
      obtain ⟨v, hv⟩ := hat.version version
      obtain ⟨text, msg, n1, -, -, -, n2, n3, n4, n5, n6⟩ := readReply_readable E.F defaults buffer hr hv req g3 { wscript := ws } hws []
      have hmeth : req.Method = meth := g4.trans (hat.method (fault_not_long fault) meth named)
      rw [hws', g5, n1] at hfr
      refine ⟨[msg], ?_, msg, rfl, seen, f, req, _, hat, ⟨world, hw, told0⟩, by rw [n3]; exact hv, n4, by rw [n5, hmeth], n6⟩
      rw [hfr]
      simp only [readReplies, List.nil_append]
      rw [← hmeth, show text.flatten = text.flatten ++ [] by simp, n2]
      rfl) h0 writes answering ok keep
  obtain ⟨seen, f, req, left, k5⟩ := k5
  exact ⟨frames, msgs, m, by rw [h1]; exact h2, k1, k2, k3, history, seen, f, req, left, k4, by simpa using k5⟩

end Indigo.Props
