/-
C101: whatever a client sends, it can read what it gets.
-/
import Verif.Props.Rejected
import Verif.Props.Kinds
import Verif.Props.RejectedApp
import Verif.Spec.Every

namespace Indigo.Props
open Indigo.Serve Indigo.Spec Indigo.Serializer
variable {σ ρ : Type}

theorem section_errors {L : Limits} {a b n : Nat} {s : Bytes} {e : Status.HTTPError} (h : SectionFault L a b n s e) : e ∈ headErrors := by
  induction h with
  | next _ _ _ _ _ _ _ _ _ _ ih => exact ih
  | _ => decide

theorem fault_errors {L : Limits} {s : Bytes} {e : Status.HTTPError} (h : HeadFault L s e) : e ∈ headErrors := by
  cases h with
  | noMethod => decide
  | unknownMethod => decide
  | line _ _ _ _ _ _ _ hl => cases hl <;> decide
  | fields _ _ _ _ _ _ hs => exact section_errors hs

/-! ### Interim responses -/

theorem versionName_text (p : Proto) : (Proto.toBytes p).dropLast = (versionName p).getD [] := by
  revert p; exact byte_forall (by decide +kernel)

/-- The interim response, after requests `history`. -/
structure Told101 (history : List Request) (pre : Fields) : Prop where
  status : pre.Status = []
  type : pre.ContentType = b!"text/html"
  coding : pre.TransferEncoding = []
  headers : pre.Headers.map (fun h => (h.Key, h.Value)) = switches history

theorem told_opening (F : Fold) (d : Serializer) {pre : Fields} {history : List Request} (h : Told101 history pre) (seen : Request) :
    Told101 (history ++ [seen]) (opening F d pre seen).2.2 := by
  unfold opening
  by_cases hu : seen.Upgrade = Proto.HTTP10 ∨ seen.Upgrade = Proto.HTTP11
  · rw [if_pos hu]
    refine ⟨h.status, h.type, h.coding, ?_⟩
    have : asksVersion seen = true := by simpa [asksVersion] using hu
    simp [switching, h.headers, switches, this, versionName_text]
  · rw [if_neg hu]
    refine ⟨h.status, h.type, h.coding, ?_⟩
    have : asksVersion seen = false := by simpa [asksVersion] using hu
    simp [h.headers, switches, this]

/-- As `ready_write`, with something in the buffer. -/
theorem ready_write_loaded {F : Fold} {n : Int} {defs : List (Bytes × Bytes)} {earlier : List Pair} {d : Serializer}
    (hd : defs.Pairwise (fun a b => F.eq a.1 b.1 = false)) (h : Serializer.Ready F n defs earlier { d with buff := [] })
    (p : Proto) (req : Request) (f : Fields) (c : Client) :
    Serializer.Ready F n defs (earlier ++ f.Headers) (write F d p req f c).ser := by
  have hx : excludeAll F f.Headers d.defaultHeaders = defaultsAfter F defs (earlier ++ f.Headers) := by
    rw [show d.defaultHeaders = _ from h.defaults, excludeAll_after F hd]
  cases ha : f.Attachment.content with
  | none =>
    rw [write_plain F d p req f c ha]
    exact ⟨rfl, hx, h.size, h.mem⟩
  | some r =>
    rw [write_attachment F d p req f c r ha]
    simp only
    cases hw : c.write (attachText F d p f) with
    | mk e c1 =>
      cases e with
      | some x => exact ⟨rfl, hx, h.size, h.mem⟩
      | none =>
        simp only
        split
        · exact ⟨rfl, hx, h.size, h.mem⟩
        · refine ⟨rfl, hx, h.size, Or.inr ?_⟩
          have hm := mem_ready h
          have hs := h.size
          dsimp only at hm hs
          simp only [stream]
          generalize (if d.fileBuff.length = 0 then List.replicate d.fileBuffSize 0 else d.fileBuff) = mem at hm
          have h16 : 16 ≤ mem.length := by rw [hm]; split <;> omega
          split
          · rw [writePlainBody_mem, hm, hs]
          · rw [writeChunkedBody_mem _ _ _ _ h16, hm, hs]

/-- The text of the interim response. -/
theorem preWrite_eq (F : Fold) (d : Serializer) (p : Proto) (f : Fields) :
    preWrite F d p f = { d with buff := d.buff ++ Proto.toBytes p ++ statusText f ++ headersText F d.defaultHeaders f ++ [13, 10],
                                defaultHeaders := excludeAll F f.Headers d.defaultHeaders } := by
  unfold preWrite
  simp [renderHeaders_eq, renderResponseLine_eq, renderProtocol, put, crlf]

theorem switches_clean (rs : List Request) : ∀ kv ∈ switches rs, NameOK kv.1 ∧ NoBreak kv.2 := by
  intro kv hkv
  simp only [switches, List.mem_flatMap, List.mem_cons, List.not_mem_nil, or_false] at hkv
  obtain ⟨r, -, rfl | rfl⟩ := hkv
  · exact ⟨by unfold NameOK NoBreak; decide, by unfold NoBreak; decide⟩
  · refine ⟨by show NameOK b!"Upgrade"; unfold NameOK NoBreak; decide, ?_⟩
    unfold versionName NoBreak
    repeat' split
    all_goals decide

/-- An answer, read from the stream in which it was written. -/
theorem readAnswer_opened (F : Fold) {defs : List (Bytes × Bytes)} (hd : DefaultsOK F defs) {n : Int} (hn : n < 16 ^ 8) {earlier : List Pair}
    {d : Serializer} (hr : Serializer.Ready F n defs earlier d) {history : List Request} {pre : Fields} (hp : Told101 history pre)
    {seen : Request} {version : Bytes} (hv : versionName seen.Proto = some version) (req : Request)
    {f : Fields} (hf : Readable defs (answeredIn seen) f) (c : Client) (hc : NoWriteError c) {w : Serializer.Written}
    (hw : w = (opening F d pre seen).2.1.write F (opening F d pre seen).1 req f c) :
    ∃ text a, w.client.written = c.written ++ text ∧ NoWriteError w.client ∧
      w.out ≠ .panic ∧ (f.Attachment.content ≠ none → w.out = .done none) ∧
      (∀ more, readAnswer req.Method (text.flatten ++ more) = some (a, more)) ∧ Interim defs history seen a.1 ∧
      versionName (answeredIn seen) = some a.2.version ∧ a.2.code = f.Code ∧
      a.2.rest = (if req.Method = .HEAD then [] else sentBody f) ∧
      SaysFields defs f a.2.fields ∧ ∃ earlier', Serializer.Ready F n defs earlier' w.ser := by
  subst hw
  by_cases hu : seen.Upgrade = Proto.HTTP10 ∨ seen.Upgrade = Proto.HTTP11
  · have hasks : asksVersion seen = true := by simpa [asksVersion] using hu
    have hin : answeredIn seen = seen.Upgrade := by simp [answeredIn, hasks]
    have hopen : opening F d pre seen = (seen.Upgrade, d.preWrite F seen.Proto (switching pre seen), switching pre seen) := by
      unfold opening; rw [if_pos hu]
    have hsw : (switching pre seen).Headers.map (fun h => (h.Key, h.Value)) = switches (history ++ [seen]) := by
      have := (told_opening F d hp seen).headers
      rw [hopen] at this
      exact this
    rw [hin] at hf
    rw [hopen, hin]
    dsimp only
    rw [preWrite_eq]
    obtain ⟨v, hv'⟩ : ∃ v, versionName seen.Upgrade = some v := by
      rcases hu with h | h <;> rw [h] <;> exact ⟨_, rfl⟩
    have hx : excludeAll F (switching pre seen).Headers d.defaultHeaders = defaultsAfter F defs (earlier ++ (switching pre seen).Headers) := by
      rw [hr.defaults, excludeAll_after F hd.distinct]
    obtain ⟨text, bytes, msg, h1, h2, h3, h4, h5, h6, h7, h8, h9, h10⟩ := readReply_loaded F hd hn (earlier := earlier ++ (switching pre seen).Headers)
      (d := { d with
        buff := d.buff ++ Proto.toBytes seen.Proto ++ statusText (switching pre seen) ++ headersText F d.defaultHeaders (switching pre seen) ++ [13, 10],
        defaultHeaders := excludeAll F (switching pre seen).Headers d.defaultHeaders }) ⟨rfl, hx, hr.size, hr.mem⟩ hv' req hf c hc
    have hready := ready_write_loaded hd.distinct (earlier := earlier ++ (switching pre seen).Headers)
      (d := { d with
        buff := d.buff ++ Proto.toBytes seen.Proto ++ statusText (switching pre seen) ++ headersText F d.defaultHeaders (switching pre seen) ++ [13, 10],
        defaultHeaders := excludeAll F (switching pre seen).Headers d.defaultHeaders }) ⟨rfl, hx, hr.size, hr.mem⟩ seen.Upgrade req f c
    obtain ⟨hpp, hvv⟩ := version_some hv
    let ds := defs.filter (fun d => !(earlier ++ (switching pre seen).Headers).any (fun h => F.eq d.1 h.Key))
    let fields := switches (history ++ [seen]) ++ ds ++ [(b!"Content-Type", b!"text/html")]
    have hhead : headersText F d.defaultHeaders (switching pre seen) = fields.flatMap fieldLine := by
      unfold headersText
      rw [hx, defaultsText_after, ← List.flatMap_map (f := fun h : Pair => (h.Key, h.Value)), hsw]
      have h1 : (switching pre seen).ContentType = b!"text/html" := hp.type
      have h2 : (switching pre seen).TransferEncoding = [] := hp.coding
      rw [h1, h2]
      simp [fields, ds]
    let m0 : Msg := { version, code := 101, reason := reasonFor (switching pre seen), fields := fields.map (fun kv => (kv.1, stripOWS kv.2)), rest := [] }
    have hfok : ∀ kv ∈ fields, NameOK kv.1 ∧ NoBreak kv.2 := by
      intro kv hkv
      simp only [fields, List.mem_append, List.mem_singleton] at hkv
      rcases hkv with (h | h) | rfl
      · exact switches_clean _ _ h
      · exact hd.clean kv (List.mem_filter.1 h).1
      · exact ⟨by unfold NameOK NoBreak; decide, by unfold NoBreak; decide⟩
    have hread : ∀ more, readReply req.Method
        (d.buff ++ Proto.toBytes seen.Proto ++ statusText (switching pre seen) ++ headersText F d.defaultHeaders (switching pre seen) ++ [13, 10] ++ more) =
        some (m0, more) := by
      intro more
      obtain ⟨t, g1, g2, g3, g4⟩ := proto_text hpp
      have := readMsg_render (rest := more) (code := (switching pre seen).Code) g2 g3 g4 (reason_clean (switching pre seen)) hfok
      rw [g1, List.dropLast_concat] at hvv
      rw [hvv] at this g1
      rw [hr.buff, hhead, g1]
      unfold readReply
      rw [show [] ++ (version ++ [32]) ++ statusText (switching pre seen) ++ fields.flatMap fieldLine ++ [13, 10] ++ more =
        version ++ [32] ++ decBytes (switching pre seen).Code ++ [32] ++ reasonFor (switching pre seen) ++ [13, 10] ++ fields.flatMap fieldLine ++ [13, 10] ++ more by
          simp [statusText], this]
      have hb : bodiless req.Method (switching pre seen).Code = true := by
        rw [show (switching pre seen).Code = 101 from rfl]
        simp [bodiless]
      simp only [hb, if_true]
      rfl
    refine ⟨text, (some m0, msg), h1, h2, h3, h4, ?_, ⟨hasks, hv, rfl, rfl, ds, List.filter_sublist, rfl⟩, by rw [h7]; exact hv', h8, h9, h10, _, hready⟩
    intro more
    unfold readAnswer
    have hfin : 200 ≤ msg.code := by rw [h8]; exact hf.final
    rw [h5, List.append_assoc, hread]
    simp only [h6, hfin, if_true]
    rfl
  · have hasks : asksVersion seen = false := by simpa [asksVersion] using hu
    have hin : answeredIn seen = seen.Proto := by simp [answeredIn, hasks]
    have hopen : opening F d pre seen = (seen.Proto, d, pre) := by
      unfold opening; rw [if_neg hu]
    rw [hin] at hf
    rw [hopen, hin]
    dsimp only
    obtain ⟨text, msg, h1, h2, h3, h4, h5, h6, h7, h8, h9⟩ := readReply_always F hd hn hr hv req hf c hc
    refine ⟨text, (none, msg), h1, h2, h3, h4, ?_, hasks, by rw [h6]; exact hv, h7, h8, h9, _, ready_write hd.distinct hr _ _ _ _⟩
    intro more
    unfold readAnswer
    have hfin : 200 ≤ msg.code := by rw [h7]; exact hf.final
    simp only [h5, hfin, if_true]

/-- As `RepliedIn`, for a connection on which the requests `past` have come already. -/
def RepliedPast (E : Setup σ ρ) (past : List Request) (st : ρ) (defaults : List (Bytes × Bytes)) (before : List Sending) (maxTokens : Nat) (remote : Bytes) (post : List (Bytes × Option GoErr)) (s : Sending)
    (a : Option Msg × Msg) : Prop :=
  ∃ history env after seen world f req left, HeardBefore E maxTokens remote post before history ∧ Delivered E maxTokens remote post env s after seen world ∧
    Answers E (routerAfter E st history) seen world (some (f, req), left) ∧ Interim defaults (past ++ history) seen a.1 ∧
    versionName (answeredIn seen) = some a.2.version ∧ a.2.code = f.Code ∧
    a.2.rest = (if s.head.method = .HEAD then [] else sentBody f) ∧
    SaysFields defaults f a.2.fields

/-- Reading the responses of a conversation, up to the request after which the connection is closed, or up to its end. -/
theorem conversation_read_any {E : Setup σ ρ} {T : Nat} {remote tail : Bytes} {post : List (Bytes × Option GoErr)} {n : Int}
    {End : Environment → ρ → Serializer → Fields → List (Option GoErr) → List (Visit σ) → List Bytes → Ended → Prop}
    {ok : Sending → Prop} {defs : List (Bytes × Bytes)} (hd : DefaultsOK E.F defs) (hn : n < 16 ^ 8)
    {env st d pre ws ss vs frames why} (h : Conversation E T remote tail post End env st d pre ws ss vs frames why) :
    ∀ earlier st0 past, st = routerAfter E st0 past → Told101 past pre →
      Serializer.Ready E.F n defs earlier d → NoWriteError { wscript := ws } → AnsweringIn answeredIn E ok T defs st → (∀ s ∈ ss, ok s) →
      ∃ k frames1 frames2 msgs, frames = frames1 ++ frames2 ∧ k ≤ ss.length ∧ msgs.length = k ∧
        (∀ ms more l, readAnswers ms more = some l →
          readAnswers ((ss.take k).map (fun s => s.head.method) ++ ms) (frames1.flatten ++ more) = some (msgs ++ l)) ∧
        (∀ i : Nat, ∀ (s : Sending) (a : Option Msg × Msg), ss[i]? = some s → msgs[i]? = some a → RepliedPast E past st defs (ss.take i) T remote post s a) ∧
        ((frames2 = [] ∧ ∃ s, 0 < k ∧ ss[k - 1]? = some s ∧ ¬ LeavesOpen s.head) ∨
         (k = ss.length ∧ ∃ history, HeardBefore E T remote post ss history ∧
          ∃ env d pre ws vs why earlier, End env (routerAfter E st0 (past ++ history)) d pre ws vs frames2 why ∧ Told101 (past ++ history) pre ∧
            Serializer.Ready E.F n defs earlier d ∧ NoWriteError { wscript := ws })) := by
  induction h with
  | done hs =>
    intro earlier st0 past hst hp hr hws ans hok
    rw [hst] at hs
    exact ⟨0, [], _, [], rfl, Nat.le_refl _, rfl, fun ms more l h => by simpa using h, by simp,
      .inr ⟨rfl, [], ⟨rfl, by simp⟩, _, _, _, _, _, _, earlier, by simpa using hs, by simpa using hp, hr, hws⟩⟩
  | panicked hdl ha =>
    intro earlier st0 past hst _ _ _ ans hok
    obtain ⟨f, req', left, h1, _⟩ := ans.request [] _ _ _ _ _ _ _ (hok _ (by simp)) hdl
    rw [routerAfter_nil] at h1
    unfold Answers at h1 ha
    rw [h1] at ha
    cases ha
  | hijacked hdl ha _ hh =>
    intro earlier st0 past hst _ _ _ ans hok
    obtain ⟨f, req', left, h1, h2, _⟩ := ans.request [] _ _ _ _ _ _ _ (hok _ (by simp)) hdl
    rw [routerAfter_nil] at h1
    unfold Answers at h1 ha
    rw [h1] at ha
    cases ha
    rw [h2] at hh; cases hh
  | @broken env st d pre ws s ss seen world f req left w hdl ha hh hw hout =>
    intro earlier st0 past hst hp hr hws ans hok
    obtain ⟨f', req', left', h1, _, h3, _⟩ := ans.request [] _ _ _ _ _ _ _ (hok _ (by simp)) hdl
    rw [routerAfter_nil] at h1
    unfold Answers at h1 ha
    rw [h1] at ha
    cases ha
    obtain ⟨v, hv⟩ := version_name hdl.carries.proto
    obtain ⟨_, _, _, _, k, _⟩ := readAnswer_opened E.F hd hn hr hp hv req h3 { wscript := ws } hws hw
    exact absurd hout k
  | @closed env st d pre ws s ss seen world f req left w e seen' a left' more hdl ha hh hw hout told hm =>
    intro earlier st0 past hst hp hr hws ans hok
    obtain ⟨f', req', left1, h1, _, h3, h4, h5, h6⟩ := ans.request [] _ _ _ _ _ _ _ (hok _ (by simp)) hdl
    rw [routerAfter_nil] at h1
    have ha0 := ha
    unfold Answers at h1 ha
    rw [h1] at ha
    cases ha
    obtain ⟨v, hv⟩ := version_name hdl.carries.proto
    have hmeth : req.Method = s.head.method := h4.trans hdl.carries.method
    obtain ⟨text, msg, k1, _, _, katt, k2, k3, k4, k5, k6, k7, _⟩ := readAnswer_opened E.F hd hn hr hp hv req h3 { wscript := ws } hws hw
    have hatt : f.Attachment.content = none := by
      cases hx : f.Attachment.content with
      | none => rfl
      | some r =>
        rw [katt (by rw [hx]; simp)] at hout
        cases hout
    have hclose : ¬ LeavesOpen s.head := by
      rintro (hk | ⟨hk, htok⟩)
      · rw [write_plain _ _ _ _ _ _ hatt] at hw
        rw [hw] at hout
        have hne : req.Upgrade ≠ Proto.Unknown := by rw [h6, hdl.carries.upgrade]; exact hk
        simp only [hne, and_false, if_false, (write_noError hws _).1] at hout
        cases hout
      · by_cases hup : req.Upgrade = Proto.Unknown
        · have hup' : seen.Upgrade = Proto.Unknown := h6 ▸ hup
          have hopen : opening E.F d pre seen = (seen.Proto, d, pre) := by
            unfold opening; rw [hup', if_neg (by decide)]
          rw [hopen] at hw
          have := (C31_keep_alive_partial E.F d seen.Proto req (by
            rw [h5, hdl.carries.connection]; exact htok) hup f hatt { wscript := ws } hws).1
          rw [h5, hdl.carries.connection, hk _ hdl.carries.proto, ← hw, hout] at this
          cases this
        · rw [write_plain _ _ _ _ _ _ hatt] at hw
          rw [hw] at hout
          simp only [hup, and_false, if_false, (write_noError hws _).1] at hout
          cases hout
    have hmore : more = [] := by
      apply hm
      obtain ⟨world', hw', ht⟩ := told
      have := ans.error [seen] seen' closeError world' hw'
      rw [routerAfter_cons, routerAfter_nil, ht] at this
      exact this
    refine ⟨1, text, [], [msg], by rw [k1, hmore]; simp, by simp, rfl, ?_, ?_, .inl ⟨rfl, s, by decide, by simp, hclose⟩⟩
    · intro ms more l hl
      simp only [List.take_succ_cons, List.take_zero, List.map_cons, List.map_nil, List.cons_append, List.nil_append, readAnswers]
      rw [← hmeth, k2]
      simp [hl]
    · intro i s0 m0 hi hm0
      cases i with
      | zero =>
        simp at hi hm0
        subst hi hm0
        exact ⟨[], _, _, _, _, _, _, _, ⟨rfl, by simp⟩, hdl, ha0, by simpa using k3, k4, k5, by rw [k6, hmeth], k7⟩
      | succ i => simp at hm0
  | @next env st d pre ws s ss seen world f req left w vs frames why hdl ha hh hw hout _ ih =>
    intro earlier st0 past hst hp hr hws ans hok
    obtain ⟨f', req', left1, h1, _, h3, h4, h5, h6⟩ := ans.request [] _ _ _ _ _ _ _ (hok _ (by simp)) hdl
    rw [routerAfter_nil] at h1
    have ha0 := ha
    unfold Answers at h1 ha
    rw [h1] at ha
    cases ha
    obtain ⟨v, hv⟩ := version_name hdl.carries.proto
    obtain ⟨text, msg, k1, kw, _, _, k2, k3, k4, k5, k6, k7, earlier', hr'⟩ := readAnswer_opened E.F hd hn hr hp hv req h3 { wscript := ws } hws hw
    obtain ⟨k, frames1, frames2, msgs, m0, m1, m2, m3, m4, m5⟩ := ih _ st0 (past ++ [seen]) (by rw [hst]; simp [routerAfter]) (told_opening E.F d hp seen) hr' kw
      (answering_next ans seen) (fun s hs => hok s (by simp [hs]))
    have hmeth : req.Method = s.head.method := h4.trans hdl.carries.method
    refine ⟨k + 1, text ++ frames1, frames2, msg :: msgs, by rw [k1, m0]; simp, by simpa using m1, by simp [m2], ?_, ?_, ?_⟩
    · intro ms more l hl
      simp only [List.take_succ_cons, List.map_cons, List.cons_append, readAnswers, List.flatten_append, List.append_assoc]
      rw [← hmeth, k2]
      have := m3 ms more l hl
      simp only [this, Option.map_some]
    · intro i s0 m0 hi hm0
      cases i with
      | zero =>
        simp at hi hm0
        subst hi hm0
        exact ⟨[], _, _, _, _, _, _, _, ⟨rfl, by simp⟩, hdl, ha0, by simpa using k3, k4, k5, by rw [k6, hmeth], k7⟩
      | succ i =>
        obtain ⟨history, a1, a2, a3, a4, a5, a6, a7, hl, b1, b2, b3, rest⟩ := m4 i s0 m0 (by simpa using hi) (by simpa using hm0)
        refine ⟨seen :: history, a1, a2, a3, a4, a5, a6, a7, ⟨by simp [hl.1], ?_⟩, b1, b2, by simpa using b3, rest⟩
        intro j s1 r1 hs1 hr1
        cases j with
        | zero =>
          simp at hs1 hr1
          subst hs1 hr1
          exact ⟨_, _, _, hdl⟩
        | succ j => exact hl.2 j s1 r1 (by simpa using hs1) (by simpa using hr1)
    · rcases m5 with ⟨h1, s', h2, h3, h4⟩ | ⟨h1, history, h2, rest⟩
      · refine .inl ⟨h1, s', by omega, ?_, h4⟩
        cases k with
        | zero => cases h2
        | succ k => simpa using h3
      · refine .inr ⟨by simp [h1], seen :: history, ⟨by simp [h2.1], ?_⟩, by simpa using rest⟩
        intro j s1 r1 hs1 hr1
        cases j with
        | zero =>
          simp at hs1 hr1
          subst hs1 hr1
          exact ⟨_, _, _, hdl⟩
        | succ j => exact h2.2 j s1 r1 (by simpa using hs1) (by simpa using hr1)

/-- What a rejection writes can be read. -/
theorem rejection_read {E : Setup σ ρ} {L : Limits} {T : Nat} {remote bad : Bytes} {n : Int} {e : Status.HTTPError} {defs : List (Bytes × Bytes)} (hd : DefaultsOK E.F defs) (hn : n < 16 ^ 8)
    {st : ρ} (history : List Request) {env d pre ws vs frames why} (h : Rejection E L T remote bad e env (routerAfter E st history) d pre ws vs frames why)
    {earlier} (hr : Serializer.Ready E.F n defs earlier d) (hws : NoWriteError { wscript := ws }) (excusing : Excusing E defs e st)
    (version : e ≠ Status.ErrUnsupportedProtocol) (long : e ≠ Status.ErrTooLongRequestLine) {meth : Method} (named : NamesMethod bad meth)
    {post before} (heard : HeardBefore E T remote post before history) :
    ∃ m, readAnswers [meth] frames.flatten = some [(none, m)] ∧ Refused E st defs before L T remote post bad meth e m := by
  obtain ⟨seen, ans, left, more, hat, -, ⟨world, hw, told⟩, -, hm, hans⟩ := h
  obtain ⟨f, req, left', g1, g2, g3, g4, g5⟩ := excusing history seen world hw
  have told0 := told
  rw [g1] at told
  cases told
  obtain ⟨w, rfl, hfr, -⟩ := hans
  obtain ⟨rfl, hws'⟩ := hm g2
  obtain ⟨v, hv⟩ := hat.version version
  obtain ⟨text, msg, n1, -, -, -, n2, n3, n4, n5, n6⟩ := readReply_readable E.F hd hn hr hv req g3 { wscript := ws } hws []
  have hmeth : req.Method = meth := g4.trans (hat.method long meth named)
  rw [hws', g5, n1] at hfr
  refine ⟨msg, ?_, history, seen, f, req, _, heard, hat, ⟨world, hw, told0⟩, by rw [n3]; exact hv, n4, by rw [n5, hmeth], n6⟩
  rw [hfr]
  have hfin : 200 ≤ msg.code := by rw [n4]; exact g3.final
  simp only [readAnswers, readAnswer, List.nil_append]
  rw [List.append_nil, hmeth] at n2
  simp only [n2, hfin, if_true]
  rfl

/-- What the last request of a connection is answered can be read. -/
theorem last_read {E : Setup σ ρ} {L : Limits} {T B : Nat} {remote : Bytes} {n : Int} {defs : List (Bytes × Bytes)} (hd : DefaultsOK E.F defs) (hn : n < 16 ^ 8)
    {st : ρ} (history : List Request) {h : Head} {path given : Bytes} {post : List (Bytes × Option GoErr)} {env d pre ws vs frames why}
    (hl : LastRequest E T remote post h path given env (routerAfter E st history) d pre ws vs frames why) (hp : Told101 history pre)
    {earlier} (hr : Serializer.Ready E.F n defs earlier d) (hws : NoWriteError { wscript := ws }) {ok : Head → Bytes → Prop} (fine : ok h path) (good : GoodHead L h path) (cut : CutBody E.F T B h given ∨ GarbledBody E.F T B h given)
    (cutting : AnsweringCut E ok L T B defs st)
    (errors : ∀ history req e (world : Act.World σ), world.hijacked = false →
      ((E.router.onError (routerAfter E st history) req e).1.run E.P E.maxAlloc world).2.hijacked = false)
    {before} (heard : HeardBefore E T remote post before history) :
    ∃ a, readAnswer h.method frames.flatten = some (a, []) ∧ RepliedCut E st defs before T remote post h path given a := by
  cases hl with
  | panicked hdl ha =>
    obtain ⟨f, req', left, h1, _⟩ := cutting history _ _ _ _ _ _ _ _ fine good cut hdl
    unfold Answers at h1 ha
    rw [h1] at ha
    cases ha
  | hijacked hdl ha _ hh =>
    obtain ⟨f, req', left, h1, h2, _⟩ := cutting history _ _ _ _ _ _ _ _ fine good cut hdl
    unfold Answers at h1 ha
    rw [h1] at ha
    cases ha
    rw [h2] at hh; cases hh
  | @broken seen world f req left w hdl ha hh hw hout =>
    obtain ⟨f', req', left', h1, _, h3, _⟩ := cutting history _ _ _ _ _ _ _ _ fine good cut hdl
    unfold Answers at h1 ha
    rw [h1] at ha
    cases ha
    obtain ⟨v, hv⟩ := version_name hdl.carries.proto
    obtain ⟨_, _, _, _, k, _⟩ := readAnswer_opened E.F hd hn hr hp hv req h3 { wscript := ws } hws hw
    exact absurd hout k
  | @answered seen world f req left w e seen' a left' more why hdl ha hh hw hout told hm =>
    obtain ⟨f', req', left1, h1, _, h3, h4⟩ := cutting history _ _ _ _ _ _ _ _ fine good cut hdl
    have ha0 := ha
    unfold Answers at h1 ha
    rw [h1] at ha
    cases ha
    obtain ⟨v, hv⟩ := version_name hdl.carries.proto
    obtain ⟨text, msg, k1, _, _, _, k2, k3, k4, k5, k6, k7, _⟩ := readAnswer_opened E.F hd hn hr hp hv req h3 { wscript := ws } hws hw
    have hmeth : req.Method = h.method := h4.trans hdl.carries.method
    have hmore : more = [] := by
      apply hm
      obtain ⟨world', hw', ht⟩ := told
      have := errors (history ++ [seen]) seen' closeError world' hw'
      rw [show routerAfter E st (history ++ [seen]) = (E.router.onRequest (routerAfter E st history) seen).2 by simp [routerAfter], ht] at this
      exact this
    refine ⟨msg, ?_, history, _, seen, world, f, req, _, heard, hdl, ha0, k3, k4, k5, by rw [k6, hmeth], k7⟩
    rw [k1, hmore]
    have := k2 []
    rw [hmeth, List.append_nil] at this
    simp [this]

/-- And so is the answer to a request with a well-formed head, whatever comes after it. -/
theorem first_read {E : Setup σ ρ} {L : Limits} {T B : Nat} {remote : Bytes} {n : Int} {defs : List (Bytes × Bytes)} (hd : DefaultsOK E.F defs) (hn : n < 16 ^ 8)
    {st : ρ} (history : List Request) {h : Head} {path given : Bytes} {post : List (Bytes × Option GoErr)} {env d pre ws vs frames why}
    (hl : FirstOf E T remote post h path given env (routerAfter E st history) d pre ws vs frames why) (hp : Told101 history pre)
    {earlier} (hr : Serializer.Ready E.F n defs earlier d) (hws : NoWriteError { wscript := ws }) {ok : Head → Bytes → Prop} (fine : ok h path) (good : GoodHead L h path)
    (cut : CutBody E.F T B h given ∨ GarbledBody E.F T B h given)
    (cutting : AnsweringCut E ok L T B defs st)
    (errors : ∀ history req e (world : Act.World σ), world.hijacked = false →
      ((E.router.onError (routerAfter E st history) req e).1.run E.P E.maxAlloc world).2.hijacked = false)
    {before} (heard : HeardBefore E T remote post before history) :
    ∃ a rest, readAnswer h.method frames.flatten = some (a, rest) ∧ RepliedCut E st defs before T remote post h path given a := by
  cases hl with
  | last hl =>
    obtain ⟨a, h1, h2⟩ := last_read hd hn history hl hp hr hws fine good cut cutting errors heard
    exact ⟨a, [], h1, h2⟩
  | @more seen world f req left w _ _ _ hdl ha hh hw hout =>
    obtain ⟨f', req', left1, h1, _, h3, h4⟩ := cutting history _ _ _ _ _ _ _ _ fine good cut hdl
    have ha0 := ha
    unfold Answers at h1 ha
    rw [h1] at ha
    cases ha
    obtain ⟨v, hv⟩ := version_name hdl.carries.proto
    obtain ⟨text, msg, k1, _, _, _, k2, k3, k4, k5, k6, k7, _⟩ := readAnswer_opened E.F hd hn hr hp hv req h3 { wscript := ws } hws hw
    have hmeth : req.Method = h.method := h4.trans hdl.carries.method
    rw [List.flatten_append, k1]
    rw [hmeth] at k2
    exact ⟨msg, _, by simpa using k2 _, history, _, seen, world, f, req, _, heard, hdl, ha0, k3, k4, k5, by rw [k6, hmeth], k7⟩

/-- **C101.** Whatever bytes a client sends (they are well-formed requests, one after another, and something which is not, by `C93_every_connection` and in one way only), in whatever segmentation: if the handlers and the error handler answer with responses which say how long
they are, then what comes back is a sequence of answers, one for each of the first `k` of the requests, and then what is due to what comes after the requests (`Kind.Reads`: nothing, or one answer more);
an independent reader of HTTP/1.x splits it correctly. The i-th answer is the one to the i-th request (`RepliedIn`): a response, and before it, if the request asks for another version of HTTP/1, an interim response with the code 101. Only if the k-th request does not keep the connection open, the requests after it and what comes after them are not answered.
(Missing: heads with an unsupported version or without a method, of which the claim is false by `C101_no_version_violation`, `C101_long_method_violation` and `C32_stale_method_violation`; and the streams of kind `outside`.) -/
theorem C101_every_client_partial (E : Setup σ ρ) (dec : DecodesChunked E.P) (cfg : Config)
    (size : cfg.bodyMaxSize < 2 ^ 64) (defaults : DefaultsOK E.F (cfg.defaultHeaders.getD [])) (enc : EncToken) (remote : Bytes)
    (st : ρ) (tame : Tame E st) (good : Sending → Prop)
    (answering : AnsweringIn answeredIn E (fun s => SendableWith E.F cfg s ∧ good s) cfg.maxEncodingTokens.toNat (cfg.defaultHeaders.getD []) st)
    (goodLast : Head → Bytes → Prop)
    (cutting : AnsweringCut E goodLast (headLimits cfg) cfg.maxEncodingTokens.toNat cfg.bodyMaxSize.toNat (cfg.defaultHeaders.getD []) st)
    (excusing : ∀ e ∈ headErrors, Excusing E (cfg.defaultHeaders.getD []) e st)
    (buffer : cfg.responseBuffSize < 16 ^ 8) (cl : Client) (quiet : Quiet cl) (writes : NoWriteError cl) (post : List (Bytes × Option GoErr)) (over : Over post)
    (ss : List Sending) (tail : Bytes) (kind : Kind) (stream : cl.stream = ss.flatMap Sending.bytes ++ tail)
    (ok : ∀ s ∈ ss, SendableWith E.F cfg s ∧ good s) (of : kind.Of E.F (headLimits cfg) cfg.maxEncodingTokens.toNat cfg.bodyMaxSize.toNat tail)
    (okLast : ∀ h path given, kind = .last h path given ∨ kind = .garbled h path given → goodLast h path) :
    ∃ k frames1 frames2 msgs,
      (serve E (newConn E.P cfg enc remote st (followedBy cl post))).1.client.written = cl.written ++ frames1 ++ frames2 ∧
      k ≤ ss.length ∧ msgs.length = k ∧
      (∀ ms more l, readAnswers ms more = some l →
        readAnswers ((ss.take k).map (fun s => s.head.method) ++ ms) (frames1.flatten ++ more) = some (msgs ++ l)) ∧
      (∀ i : Nat, ∀ (s : Sending) (a : Option Msg × Msg), ss[i]? = some s → msgs[i]? = some a →
        RepliedIn E st (cfg.defaultHeaders.getD []) (ss.take i) cfg.maxEncodingTokens.toNat remote post s a) ∧
      ((frames2 = [] ∧ ∃ s, 0 < k ∧ ss[k - 1]? = some s ∧ ¬ LeavesOpen s.head) ∨
       (k = ss.length ∧ kind.Reads E st (cfg.defaultHeaders.getD []) ss (headLimits cfg) cfg.maxEncodingTokens.toNat remote tail post frames2.flatten)) := by
  obtain ⟨ss', tail', kind', h1, h2, h3, c, why, vs, frames, h4, -, h6, h7⟩ :=
    C93_every_connection E dec cfg size enc remote st tame cl quiet post over
  obtain ⟨rfl, rfl, rfl⟩ := C93_one_reading E.F cfg ss ss' tail tail' kind kind' (fun s hs => (ok s hs).1) h2 of h3 (stream.symm.trans h1)
  have h0 : Serializer.Ready E.F cfg.responseBuffSize (cfg.defaultHeaders.getD []) []
      (Serializer.new cfg.responseBuffSize (cfg.defaultHeaders.getD [])) := by
    refine ⟨rfl, ?_, rfl, Or.inl rfl⟩
    simp [Serializer.new, processDefaultHeaders_eq, defaultsAfter]
  obtain ⟨k, frames1, frames2, msgs, m0, m1, m2, m3, m4, m5⟩ :=
    conversation_read_any (n := cfg.responseBuffSize) defaults buffer h7 [] st [] rfl ⟨rfl, rfl, rfl, rfl⟩ h0 writes answering ok
  refine ⟨k, frames1, frames2, msgs, by rw [h4]; simp [h6, m0], m1, m2, m3, fun i s a h h' => m4 i s a h h', ?_⟩
  rcases m5 with h | ⟨hk, history, heard, env, d, pre, ws, vs', why', earlier, hend, hp, hr, hws⟩
  · exact .inl h
  refine .inr ⟨hk, ?_⟩
  rw [List.nil_append] at hend hp
  cases kind with
  | unfinished =>
    obtain ⟨seen, ans, left, -, ⟨world, hw, told⟩, hf, -⟩ := hend
    have := answering.error history seen closeError world hw
    rw [told] at this
    simp [Kind.Reads, hf this]
  | crashing => simp [Kind.Reads, hend.2.1]
  | faulty e =>
    intro version meth named
    exact rejection_read (env := env) (pre := pre) defaults buffer history hend hr hws (excusing e (fault_errors of.2.2)) version (fault_not_long of.2.2) named heard
  | tooLong =>
    obtain ⟨e, he, hend⟩ := hend
    refine ⟨e, he, fun long meth named => ?_⟩
    refine rejection_read (env := env) (pre := pre) defaults buffer history hend hr hws (excusing e ?_) ?_ long named heard
    · clear hend long; revert e; decide
    · clear hend long; revert e; decide
  | last h path given =>
    obtain ⟨a, h1, h2⟩ := last_read defaults buffer history hend hp hr hws (okLast _ _ _ (.inl rfl)) of.2.1 (.inl of.2.2) cutting answering.error heard
    exact ⟨a, by simp [readAnswers, h1], h2⟩
  | garbled h path given =>
    exact first_read defaults buffer history hend hp hr hws (okLast _ _ _ (.inr rfl)) of.2.1 (.inr of.2.2) cutting answering.error heard
  | outside => trivial

/-! ### The hypotheses are met -/

/-- A handler which does not look at the body. -/
def echoPath : Router.Handler Act := fun r => pure (Fields.new.bytes r.Path, r)

theorem echo_tame : Tame simple ⟨echoPath, reportError⟩ := by
  intro history req w f req' hq hr
  rw [simple_state] at hr
  cases hr
  exact ⟨hq, rfl, rfl⟩

theorem echo_answering : AnsweringIn answeredIn simple (fun s => SendableWith simple.F Config.default s ∧ True) Config.default.maxEncodingTokens.toNat
    (Config.default.defaultHeaders.getD []) ⟨echoPath, reportError⟩ where
  request history remote post env s after req world _ _ := by
    rw [simple_state]
    exact ⟨_, _, _, rfl, rfl, report_plain _ _, rfl, rfl, rfl⟩
  error history req e world hw := by
    rw [simple_state]
    exact hw

theorem echo_cutting : AnsweringCut simple (fun _ _ => True) (headLimits Config.default) Config.default.maxEncodingTokens.toNat Config.default.bodyMaxSize.toNat
    (Config.default.defaultHeaders.getD []) ⟨echoPath, reportError⟩ := by
  intro history remote post env h path given seen world _ _ _ _
  rw [simple_state]
  exact ⟨_, _, _, rfl, rfl, report_plain _ _, rfl⟩

theorem echo_excusing : ∀ e ∈ headErrors, Excusing simple (Config.default.defaultHeaders.getD []) e ⟨echoPath, reportError⟩ := by
  intro e he history req world hw
  rw [simple_state]
  refine ⟨_, _, _, rfl, hw, excuse_plain _ _ ?_, rfl, rfl⟩
  revert e; decide

/-- The beginning of a request: two of its five bytes are missing. -/
def beginning : Bytes := posted.head.render ++ b!"hel"

/-- C101: a request, and one whose body does not come to its end; both are answered. -/
example : ∃ cl : Client, Quiet cl ∧ NoWriteError cl ∧ cl.stream = [chunked].flatMap Sending.bytes ++ beginning ∧
    (∀ s ∈ [chunked], SendableWith simple.F Config.default s ∧ True) ∧ (∀ s ∈ [chunked], s.head.last b!"upgrade" = none) ∧
    (Kind.last posted.head posted.path b!"hel").Of simple.F (headLimits Config.default) Config.default.maxEncodingTokens.toNat Config.default.bodyMaxSize.toNat beginning ∧
    (readReplies [.POST, .POST]
      (serve simple (newConn simple.P Config.default 1 b!"1.2.3.4" ⟨echoPath, reportError⟩ (followedBy cl []))).1.client.written.flatten).map
      (List.map (fun m => (m.code, m.rest))) = some [(200, b!"/b c"), (200, b!"/a")] := by
  refine ⟨arrive [chunked.bytes ++ beginning.take 30, beginning.drop 30], by unfold Quiet; decide +kernel, by simp [NoWriteError, arrive], by decide +kernel,
    ?_, by decide +kernel, ⟨rfl, ?_, .short (by decide +kernel) (by decide +kernel)⟩, by decide +kernel⟩
  · intro s hs
    cases List.mem_singleton.1 hs
    exact ⟨chunked_ok, trivial⟩
  · exact ⟨posted_ok.ok, posted_ok.clean, posted_ok.noBareEmpty, posted_ok.fits, posted_ok.path⟩

end Indigo.Props
