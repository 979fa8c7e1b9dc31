/-
C02, C22, C23, C32, C50: connections.
-/
import Verif.Proofs.Serve5
import Verif.Proofs.Reject
import Verif.Proofs.Chunked
import Verif.Props.Cookie

namespace Indigo.Props
open Indigo.Spec Indigo.Serve Indigo.Body
variable {σ ρ : Type}

/-- The limits on heads a configuration stands for. -/
def headLimits (cfg : Config) : Limits :=
  { line := cfg.urlBufferMaximal.toNat, names := cfg.keySpaceMaximal.toNat, values := cfg.valueSpaceMaximal.toNat
    number := cfg.headersNumberMaximal.toNat, value := cfg.headersMaxValueLength.toNat }

/-- The request is well-formed and within the limits of the configuration. -/
abbrev SendableWith (F : Fold) (cfg : Config) (s : Sending) : Prop :=
  Sendable F (headLimits cfg) cfg.maxEncodingTokens.toNat cfg.bodyMaxSize.toNat s

theorem newConn_idle (E : Setup σ ρ) (cfg : Config) (enc : EncToken) (remote : Bytes) (st : ρ) (client : Client) :
    Idle E (headLimits cfg) cfg.maxEncodingTokens.toNat cfg.bodyMaxSize.toNat remote { Encryption := enc }
      (newConn E.P cfg enc remote st client) := by
  constructor
  · exact ⟨rfl, ⟨rfl, rfl⟩, ⟨rfl, rfl⟩, ⟨rfl, rfl⟩, rfl, rfl⟩
  · exact ⟨⟨rfl, rfl, rfl⟩, rfl, rfl, rfl, rfl, rfl, rfl⟩
  all_goals first | rfl | exact ⟨_, rfl⟩

/-- **C22.** On a new connection, to any sequence of well-formed requests with bodies, in any segmentation, the router
is called once per request, in order, with that request's head and body, and what is written are the router's answers
in the same order (`Conversation`), whatever the handlers do with the bodies. It goes on until all requests are
answered, or a handler panics or hijacks the connection, or a response ends it. -/
theorem C22_pipelining (E : Setup σ ρ) (dec : DecodesChunked E.P) (cfg : Config)
    (size : cfg.bodyMaxSize < 2 ^ 64) (enc : EncToken) (remote : Bytes) (st : ρ) (tame : Tame E st) (cl : Client) (quiet : Quiet cl)
    (post : List (Bytes × Option GoErr)) (silent : Silent post) (ss : List Sending)
    (ok : ∀ s ∈ ss, SendableWith E.F cfg s) (stream : cl.stream = ss.flatMap Sending.bytes) :
    ∃ c why vs frames, serve E (newConn E.P cfg enc remote st (followedBy cl post)) = (c, some why) ∧
      c.visits = vs ∧ c.client.written = cl.written ++ frames ∧
      Conversation E cfg.maxEncodingTokens.toNat remote [] post (Silence E) { Encryption := enc } st
        (Serializer.new cfg.responseBuffSize (cfg.defaultHeaders.getD [])) Fields.new cl.wscript ss vs frames why := by
  obtain ⟨vs, frames, why, h1, h2⟩ := serve_conversation E dec (L := headLimits cfg) (limit := cfg.bodyMaxSize.toNat)
    (by unfold maxUint; omega) (remote := remote) [] post (Silence E)
    (by
      intro env c cl idle hc q hs
      have hnil : (segs cl).flatten = [] := by rw [segs_flatten, hs]
      have hfeed := Parser.feed_eq E.F (segs cl) c.parser (idle.ready.cond
        (by rw [hnil]; exact ⟨by simp, by simp, by simp⟩) (by rw [hnil]; intro m line rest e; simp at e))
      rw [hnil] at hfeed
      have hex : (Parser.exec E.F c.parser.state c.parser []).2 = .pending := by
        rw [idle.ready.state, Parser.exec_eq]
        simp [Parser.step, Parser.stepMethod, cut, idle.ready.startLine.1, Buf.append]
      rcases hf : Parser.feed E.F c.parser (segs cl) with ⟨p', r, rest⟩
      rw [hf] at hfeed
      have hr : r = .pending := by
        cases r <;> simp [Parser.FeedRel, hex] at hfeed ⊢
        rw [hfeed] at hex; simp at hex
      subst hr
      obtain ⟨ans, left, more, k1, k2, k3⟩ := serve_silence E silent c cl hc q idle.hijacked p' rest hf
      exact ⟨_, more, _, k1, _, ans, left, rfl, k2, k3, rfl⟩)
    ss { Encryption := enc } (newConn E.P cfg enc remote st (followedBy cl post)) cl tame
    (newConn_idle E cfg enc remote st _) rfl quiet ok (by rw [stream]; simp)
  exact ⟨_, why, vs, frames, by rw [← h1.why], by rw [h1.visits]; rfl, h1.written, h2⟩

/-- No call for a request. -/
def NoRequests (End : Environment → ρ → Serializer → Fields → List (Option GoErr) → List (Visit σ) → List Bytes → Ended → Prop) :
    Prop :=
  ∀ env st d pre ws vs frames why, End env st d pre ws vs frames why → ∀ v ∈ vs, ∀ seen world a left,
    v ≠ Visit.request seen world a left

/-- The calls of a conversation belong to its requests. -/
theorem conversation_delivered {E : Setup σ ρ} {T : Nat} {remote tail : Bytes} {post} {End} (hend : NoRequests (σ := σ) (ρ := ρ) End)
    {env st d pre ws ss vs frames why} (h : Conversation E T remote tail post End env st d pre ws ss vs frames why) :
    ∀ (i : Nat) seen world a left, vs[i]? = some (Visit.request seen world a left) →
      ∃ s, ss[i]? = some s ∧
        Delivered E T remote post (if i = 0 then env else {}) s ((ss.drop (i + 1)).flatMap Sending.bytes ++ tail) seen world := by
  induction h with
  | done he =>
    intro i seen world a left hi
    exact absurd rfl (hend _ _ _ _ _ _ _ _ he _ (List.mem_of_getElem? hi) seen world a left)
  | panicked hd =>
    intro i seen world a left hi
    cases i with
    | zero => simp at hi; obtain ⟨rfl, rfl, _⟩ := hi; exact ⟨_, rfl, hd⟩
    | succ i => simp at hi
  | hijacked hd =>
    intro i seen world a left hi
    cases i with
    | zero => simp at hi; obtain ⟨rfl, rfl, _⟩ := hi; exact ⟨_, rfl, hd⟩
    | succ i => simp at hi
  | broken hd =>
    intro i seen world a left hi
    cases i with
    | zero => simp at hi; obtain ⟨rfl, rfl, _⟩ := hi; exact ⟨_, rfl, hd⟩
    | succ i => simp at hi
  | closed hd =>
    intro i seen world a left hi
    cases i with
    | zero => simp at hi; obtain ⟨rfl, rfl, _⟩ := hi; exact ⟨_, rfl, hd⟩
    | succ i => cases i <;> simp at hi
  | next hd _ _ _ _ _ ih =>
    intro i seen world a left hi
    cases i with
    | zero => simp at hi; obtain ⟨rfl, rfl, _⟩ := hi; exact ⟨_, rfl, hd⟩
    | succ i =>
      simp at hi
      obtain ⟨s, h1, h2⟩ := ih i seen world a left hi
      refine ⟨s, by simpa using h1, ?_⟩
      simpa using h2

theorem silence_noRequests (E : Setup σ ρ) : NoRequests (Silence E) := by
  rintro env st d pre ws vs frames why ⟨s, a, l, rfl, _⟩ v hv seen world a left rfl
  simp at hv

theorem rejection_noRequests (E : Setup σ ρ) (L : Limits) (T : Nat) (remote bad : Bytes) (e : Status.HTTPError) : NoRequests (σ := σ) (ρ := ρ) (Rejection E L T remote bad e) := by
  rintro env st d pre ws vs frames why ⟨s, a, l, m, _, _, _, rfl, _⟩ v hv seen world a left rfl
  simp at hv

/-- **C22, consequence.** The i-th call of the router belongs to the i-th request; behind the body of this request the
connection delivers the requests after it. -/
theorem C22_each_its_own (E : Setup σ ρ) (dec : DecodesChunked E.P) (cfg : Config)
    (size : cfg.bodyMaxSize < 2 ^ 64) (enc : EncToken) (remote : Bytes) (st : ρ) (tame : Tame E st) (cl : Client) (quiet : Quiet cl)
    (post : List (Bytes × Option GoErr)) (silent : Silent post) (ss : List Sending)
    (ok : ∀ s ∈ ss, SendableWith E.F cfg s) (stream : cl.stream = ss.flatMap Sending.bytes)
    (i : Nat) (seen : Request) (world : BC σ) (a : Option (Fields × Request)) (left : Act.World σ)
    (call : (serve E (newConn E.P cfg enc remote st (followedBy cl post))).1.visits[i]? = some (.request seen world a left)) :
    ∃ s, ss[i]? = some s ∧
      Delivered E cfg.maxEncodingTokens.toNat remote post (if i = 0 then { Encryption := enc } else {}) s
        ((ss.drop (i + 1)).flatMap Sending.bytes) seen world := by
  obtain ⟨c, why, vs, frames, h1, h2, _, h3⟩ := C22_pipelining E dec cfg size enc remote st tame cl quiet post silent ss ok stream
  rw [h1, h2] at call
  simpa using conversation_delivered (silence_noRequests E) h3 i seen world a left call

/-- All requests of a conversation which ended by the client's silence have been answered. -/
theorem conversation_served {E : Setup σ ρ} {T : Nat} {remote tail : Bytes} {post}
    {env st d pre ws ss vs frames why} (h : Conversation E T remote tail post (Silence E) env st d pre ws ss vs frames why)
    (hw : why = .readFailed) : vs.length = ss.length + 1 ∧
      ∀ i, i < ss.length → ∃ seen world f left, vs[i]? = some (Visit.request seen world (some f) left) := by
  induction h with
  | done he =>
    obtain ⟨s, a, l, rfl, _⟩ := he
    simp
  | panicked => cases hw
  | hijacked => cases hw
  | broken => cases hw
  | closed => split at hw <;> cases hw
  | next hd _ _ _ _ _ ih =>
    obtain ⟨h1, h2⟩ := ih hw
    refine ⟨by simp [h1], ?_⟩
    intro i hi
    cases i with
    | zero => exact ⟨_, _, _, _, rfl⟩
    | succ i => exact h2 i (by simp at hi; omega)

/-- **C22, consequence.** If serving ends because the client has fallen silent, then for each request the router has been
called, and has answered. -/
theorem C22_all_served (E : Setup σ ρ) (dec : DecodesChunked E.P) (cfg : Config)
    (size : cfg.bodyMaxSize < 2 ^ 64) (enc : EncToken) (remote : Bytes) (st : ρ) (tame : Tame E st) (cl : Client) (quiet : Quiet cl)
    (post : List (Bytes × Option GoErr)) (silent : Silent post) (ss : List Sending)
    (ok : ∀ s ∈ ss, SendableWith E.F cfg s) (stream : cl.stream = ss.flatMap Sending.bytes)
    (ended : (serve E (newConn E.P cfg enc remote st (followedBy cl post))).2 = some .readFailed) :
    let vs := (serve E (newConn E.P cfg enc remote st (followedBy cl post))).1.visits
    vs.length = ss.length + 1 ∧
      ∀ i, i < ss.length → ∃ seen world f left, vs[i]? = some (.request seen world (some f) left) := by
  obtain ⟨c, why, vs, frames, h1, h2, _, h3⟩ := C22_pipelining E dec cfg size enc remote st tame cl quiet post silent ss ok stream
  rw [h1] at ended ⊢
  simp only [Option.some.injEq] at ended
  dsimp only
  rw [h2]
  exact conversation_served h3 ended

/-! ### C23 -/

/-- What handlers can find out about two requests is the same, not counting the remote address and hidden buffers. -/
structure SameRequest (F : Fold) (r r' : Request) : Prop where
  method : r.Method = r'.Method
  path : r.Path = r'.Path
  query : r.Query.raw = r'.Query.raw ∧ r.Query.parsed = r'.Query.parsed ∧ r.Query.params.pairs = r'.Query.params.pairs
  params : r.Params.pairs = r'.Params.pairs
  proto : r.Proto = r'.Proto
  headers : r.Headers.pairs = r'.Headers.pairs
  encoding : r.Encoding = r'.Encoding
  contentLength : r.ContentLength = r'.ContentLength
  contentType : r.ContentType = r'.ContentType
  connection : r.Connection = r'.Connection
  upgrade : r.Upgrade = r'.Upgrade
  ctx : r.Ctx = r'.Ctx
  env : r.Env = r'.Env
  cookies : (r.cookies F).1.map jarPairs = (r'.cookies F).1.map jarPairs

theorem version_unique {v : Bytes} {p p' : Proto} (h : IsVersion v p) (h' : IsVersion v p') : p = p' := by
  obtain ⟨a, h⟩ := h
  obtain ⟨b, h'⟩ := h'
  rcases h with ⟨rfl, rfl⟩ | ⟨rfl, rfl⟩ | ⟨rfl, rfl⟩ <;> rcases h' with ⟨h', rfl⟩ | ⟨h', rfl⟩ | ⟨h', rfl⟩ <;>
    first | rfl | (simp at h')

theorem delivered_same {E : Setup σ ρ} {T : Nat} {remote remote' : Bytes} {post post'} {env : Environment} {s : Sending}
    {after after' : Bytes} {seen seen' : Request} {world world' : BC σ}
    (h : Delivered E T remote post env s after seen world) (h' : Delivered E T remote' post' env s after' seen' world') :
    SameRequest E.F seen seen' where
  method := h.carries.method.trans h'.carries.method.symm
  path := h.path.trans h'.path.symm
  query := ⟨h.carries.query.1.trans h'.carries.query.1.symm, h.carries.query.2.1.trans h'.carries.query.2.1.symm,
    h.carries.query.2.2.trans h'.carries.query.2.2.symm⟩
  params := h.params.trans h'.params.symm
  proto := version_unique h.carries.proto h'.carries.proto
  headers := h.carries.headers.trans h'.carries.headers.symm
  encoding := by
    have h1 := h.carries.transfer.trans h'.carries.transfer.symm
    have h2 := h.carries.content.trans h'.carries.content.symm
    have h3 := h.carries.trailer.trans h'.carries.trailer.symm
    have h4 : seen.Encoding.Chunked = seen'.Encoding.Chunked := by rw [h.carries.chunked, h'.carries.chunked, h1]
    cases he : seen.Encoding
    cases he' : seen'.Encoding
    simp_all
  contentLength := h.carries.contentLength.trans h'.carries.contentLength.symm
  contentType := h.carries.contentType.trans h'.carries.contentType.symm
  connection := h.carries.connection.trans h'.carries.connection.symm
  upgrade := h.carries.upgrade.trans h'.carries.upgrade.symm
  ctx := h.ctx.trans h'.ctx.symm
  env := h.env.trans h'.env.symm
  cookies := by
    have hh := h.carries.headers.trans h'.carries.headers.symm
    apply Option.ext
    intro ps
    rw [show (_ = some ps) ↔ _ from C33_request_cookies E.F seen ps, show (_ = some ps) ↔ _ from C33_request_cookies E.F seen' ps, hh]

/-- **C23 (part).** What the router is called with for a request which is not the first one on its connection depends on
this request only: after two histories, on two connections, the same request looks the same. The remote address is the
one of the connection. Missing: the encryption token, which is lost (`C23_encryption_violation`), and handlers changing
the remote address (`C23_remote_violation`). -/
theorem C23_no_leak_partial (E : Setup σ ρ) (dec : DecodesChunked E.P) (cfg : Config)
    (size : cfg.bodyMaxSize < 2 ^ 64) (enc enc' : EncToken) (remote remote' : Bytes) (st st' : ρ) (tame : Tame E st) (tame' : Tame E st')
    (cl cl' : Client) (quiet : Quiet cl) (quiet' : Quiet cl')
    (post post' : List (Bytes × Option GoErr)) (silent : Silent post) (silent' : Silent post') (ss ss' : List Sending)
    (ok : ∀ s ∈ ss, SendableWith E.F cfg s) (ok' : ∀ s ∈ ss', SendableWith E.F cfg s)
    (stream : cl.stream = ss.flatMap Sending.bytes) (stream' : cl'.stream = ss'.flatMap Sending.bytes)
    (i i' : Nat) (pos : 0 < i) (pos' : 0 < i') (same : ss[i]? = ss'[i']?)
    (seen seen' : Request) (world world' : BC σ) (a a' : Option (Fields × Request)) (left left' : Act.World σ)
    (call : (serve E (newConn E.P cfg enc remote st (followedBy cl post))).1.visits[i]? = some (.request seen world a left))
    (call' : (serve E (newConn E.P cfg enc' remote' st' (followedBy cl' post'))).1.visits[i']? =
      some (.request seen' world' a' left')) :
    SameRequest E.F seen seen' ∧ seen.Remote = remote ∧ seen'.Remote = remote' := by
  obtain ⟨s, h1, h2⟩ := C22_each_its_own E dec cfg size enc remote st tame cl quiet post silent ss ok stream i seen world a left call
  obtain ⟨s', h1', h2'⟩ := C22_each_its_own E dec cfg size enc' remote' st' tame' cl' quiet' post' silent' ss' ok' stream' i'
    seen' world' a' left' call'
  rw [h1, h1'] at same
  cases same
  rw [if_neg (by omega)] at h2 h2'
  exact ⟨delivered_same h2 h2', h2.remote, h2'.remote⟩

/-- **C23** is false for the encryption token: on every connection, whatever its token, all requests except the first one
come with the token 0 (`Plain`). -/
theorem C23_encryption_violation (E : Setup σ ρ) (dec : DecodesChunked E.P) (cfg : Config)
    (size : cfg.bodyMaxSize < 2 ^ 64) (enc : EncToken) (remote : Bytes) (st : ρ) (tame : Tame E st) (cl : Client) (quiet : Quiet cl)
    (post : List (Bytes × Option GoErr)) (silent : Silent post) (ss : List Sending)
    (ok : ∀ s ∈ ss, SendableWith E.F cfg s) (stream : cl.stream = ss.flatMap Sending.bytes)
    (i : Nat) (seen : Request) (world : BC σ) (a : Option (Fields × Request)) (left : Act.World σ)
    (call : (serve E (newConn E.P cfg enc remote st (followedBy cl post))).1.visits[i]? = some (.request seen world a left)) :
    seen.Env.Encryption = if i = 0 then enc else 0 := by
  obtain ⟨s, h1, h2⟩ := C22_each_its_own E dec cfg size enc remote st tame cl quiet post silent ss ok stream i seen world a left call
  rw [h2.env]
  split <;> rfl

end Indigo.Props
