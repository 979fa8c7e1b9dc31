/-
The serving loop on a well-formed request.
-/
import Verif.Proofs.Serve

namespace Indigo.Serve
open Indigo.Spec Indigo.Body
variable {σ ρ : Type}

/-- A connection between two requests. -/
structure Idle (E : Setup σ ρ) (L : Limits) (maxTokens limit : Nat) (remote : Bytes) (env : Environment) (c : Conn σ ρ) :
    Prop where
  ready : Parser.Ready c.parser
  cleared : Cleared c.req
  limits : Parser.limits c.parser = L
  tokens : c.parser.cfg.maxEncodingTokens = maxTokens
  params : c.req.Params.pairs = []
  ctx : c.req.Ctx = []
  env : c.req.Env = env
  remote : c.req.Remote = remote
  hijacked : c.req.wasHijacked = false
  /-- the version of the last request -/
  named : ∃ v, versionName c.req.Proto = some v
  decoder : c.body.parser = E.P.init
  bodyMax : c.body.maxBodyLen = limit

/-- The versions which are supported have names. -/
theorem named_version {v : Bytes} {p : Proto} (h : IsVersion v p) : ∃ n, versionName p = some n := by
  obtain ⟨_, h⟩ := h
  rcases h with ⟨_, rfl⟩ | ⟨_, rfl⟩ | ⟨_, rfl⟩
  · exact ⟨_, rfl⟩
  · exact ⟨_, rfl⟩
  · exact ⟨_, rfl⟩

/-- The body of a request which has just been announced. -/
theorem framed_pieces (P : ChunkedParser σ) (dec : DecodesChunked P) (F : Fold) (maxTokens : Nat) (s : Sending)
    (framed : Framed F maxTokens s) (seen : Request) (carries : Carries F maxTokens s.head seen) (b : Body σ)
    (ready : b.parser = P.init) (fits : s.body.length ≤ b.maxBodyLen) (uint : b.maxBodyLen ≤ maxUint) (cl : Client) (q : Quiet cl)
    (after : Bytes) (stream : cl.stream = s.coded ++ after) (post : List (Bytes × Option GoErr)) :
    ∃ ds b' c', Pieces P (b.initFor seen, followedBy cl post) ds .eof (b', followedBy c' post) ∧ ds.flatten = s.body ∧
      c'.stream = after ∧ Quiet c' ∧ b'.parser = P.init ∧ b'.maxBodyLen = b.maxBodyLen := by
  have hch : seen.Encoding.Chunked = s.head.isChunked F maxTokens := by
    rw [carries.chunked, carries.transfer]; rfl
  cases framed with
  | sized h1 h2 h3 =>
    rw [h1] at hch
    obtain ⟨i1, i2, i3, i4, i5⟩ := initFor_plain b seen hch
    rw [carries.contentLength, toUint_bmod, show decimal s.head.lengthDigits % 2 ^ 64 = s.body.length from h3] at i2
    obtain ⟨ds, b', c', g1, g2, g3, g4, g5, _⟩ := plain_pieces P cl.size (b.initFor seen) cl s.body after (Nat.le_refl _)
      i1 i3 (by rw [i2, initFor_max]; exact fits) i2 q (by rw [stream, h2])
    refine ⟨ds, b', c', pieces_followedBy P post g1 (by simp [GoErr.timeout]), g2, g3, g4, ?_, ?_⟩
    · rw [g5, ← ready]; unfold initFor; dsimp only; split <;> rfl
    · rw [g5, ← initFor_max b seen]
  | chunked chunks h1 h2 h3 =>
    rw [h1] at hch
    obtain ⟨D, hD, hdec⟩ := dec
    obtain ⟨i1, i2, i3, i4, i5⟩ := initFor_chunked b seen hch
    obtain ⟨ds, b', c', g1, g2, g3, g4, g5, _⟩ := chunked_pieces P hD cl.size (b.initFor seen) cl s.body after (Nat.le_refl _)
      i1 i3 (by rw [i2, initFor_max]; omega) (by rw [initFor_max]; exact uint)
      (by rw [i4, i5, ready, stream, h3]; exact hdec _ _ _ _ h2) q
    refine ⟨ds, b', c', pieces_followedBy P post g1 (by simp [GoErr.timeout]), g2, g3, g4, ?_, ?_⟩
    · rw [g5]
    · rw [g5, ← initFor_max b seen]

/-! ### Upgrades -/

theorem parseUpgradeToken_range (t : Bytes) : Proto.parseUpgradeToken t ∈ [Proto.Unknown, Proto.HTTP10, Proto.HTTP11, Proto.HTTP2] := by
  unfold Proto.parseUpgradeToken
  repeat' split
  all_goals simp

theorem chooseUpgrade_range (line : Bytes) : Proto.chooseUpgrade line ∈ [Proto.Unknown, Proto.HTTP10, Proto.HTTP11, Proto.HTTP2] := by
  have key : ∀ (n : Nat) (line : Bytes), Proto.chooseUpgradeLoop n line ∈ [Proto.Unknown, Proto.HTTP10, Proto.HTTP11, Proto.HTTP2] := by
    intro n
    induction n with
    | zero => intro line; simp [Proto.chooseUpgradeLoop]
    | succ n ih =>
      intro line
      simp only [Proto.chooseUpgradeLoop]
      split
      · simp
      · split
        · exact parseUpgradeToken_range _
        · exact ih _
  exact key _ _

theorem upgrades_iff {r : Request} (h : r.Upgrade ∈ [Proto.Unknown, Proto.HTTP10, Proto.HTTP11, Proto.HTTP2]) :
    upgrades r = true ↔ r.Upgrade = Proto.HTTP10 ∨ r.Upgrade = Proto.HTTP11 := by
  unfold upgrades
  simp only [List.mem_cons, List.not_mem_nil, or_false] at h
  rcases h with h | h | h | h <;> rw [h] <;> decide

theorem carries_upgrade {F : Fold} {n : Nat} {h : Head} {r : Request} (c : Carries F n h r) :
    r.Upgrade ∈ [Proto.Unknown, Proto.HTTP10, Proto.HTTP11, Proto.HTTP2] := by
  rw [c.upgrade]
  cases h.last b!"upgrade" with
  | none => simp
  | some v => exact chooseUpgrade_range v

theorem header_connection (F : Fold) (f : Fields) (v : Bytes) :
    f.header F b!"Connection" [v] = some { f with Headers := f.Headers ++ [⟨b!"Connection", v⟩] } := by
  have h1 : F.eq b!"Connection" b!"content-type" = false := by
    rw [Bool.eq_false_iff, Ne, F.eq_iff_lower (by decide) (by decide)]; decide
  have h2 : F.eq b!"Connection" b!"transfer-encoding" = false := by
    rw [Bool.eq_false_iff, Ne, F.eq_iff_lower (by decide) (by decide)]; decide
  simp [Fields.header, h1, h2]

theorem header_upgrade (F : Fold) (f : Fields) (v : Bytes) :
    f.header F b!"Upgrade" [v] = some { f with Headers := f.Headers ++ [⟨b!"Upgrade", v⟩] } := by
  have h1 : F.eq b!"Upgrade" b!"content-type" = false := by
    rw [Bool.eq_false_iff, Ne, F.eq_iff_lower (by decide) (by decide)]; decide
  have h2 : F.eq b!"Upgrade" b!"transfer-encoding" = false := by
    rw [Bool.eq_false_iff, Ne, F.eq_iff_lower (by decide) (by decide)]; decide
  simp [Fields.header, h1, h2]

theorem preResponse_eq (E : Setup σ ρ) (c : Conn σ ρ)
    (h : c.req.Upgrade ∈ [Proto.Unknown, Proto.HTTP10, Proto.HTTP11, Proto.HTTP2]) :
    preResponse E c = ((opening E.F c.ser c.upgradePreResp c.req).1,
      { c with
        ser := (opening E.F c.ser c.upgradePreResp c.req).2.1
        upgradePreResp := (opening E.F c.ser c.upgradePreResp c.req).2.2 }) := by
  unfold preResponse opening
  by_cases hu : upgrades c.req = true
  · rw [if_pos hu, if_pos ((upgrades_iff h).1 hu)]
    dsimp only
    rw [header_connection, Option.getD_some, header_upgrade, Option.getD_some]
    have : (({ ({ (c.upgradePreResp.code Status.SwitchingProtocols) with
          Headers := (c.upgradePreResp.code Status.SwitchingProtocols).Headers ++ [⟨b!"Connection", b!"upgrade"⟩] } : Fields) with
          Headers := (c.upgradePreResp.code Status.SwitchingProtocols).Headers ++ [⟨b!"Connection", b!"upgrade"⟩] ++
            [⟨b!"Upgrade", trimLast (Proto.toBytes c.req.Proto)⟩] } : Fields)) =
        switching c.upgradePreResp c.req := by
      unfold switching trimLast
      rw [List.dropLast_eq_take]
      simp [Fields.code, Status.SwitchingProtocols]
    rw [this]
  · have hu' : ¬ (c.req.Upgrade = Proto.HTTP10 ∨ c.req.Upgrade = Proto.HTTP11) := fun h' => hu ((upgrades_iff h).2 h')
    rw [if_neg hu, if_neg hu']

/-! ### Handlers -/

theorem reset_cleared (r : Request) (h : r.Query.parsed = false → r.Query.params.pairs = []) : Cleared r.reset := by
  refine ⟨?_, rfl, rfl, rfl, rfl, rfl, rfl⟩
  unfold Request.reset Query.set
  dsimp only
  cases hp : r.Query.parsed with
  | true => simp [Storage.clear]
  | false => simp [h hp]

/-- What a handler which does not hijack the connection leaves of the body and of the connection. -/
theorem run_left (P : ChunkedParser σ) (maxAlloc : Nat) {α : Type} (x : Act α) (w : Act.World σ) {limit after post}
    (h : Left P limit after post (w.body, w.client)) (hh : (x.run P maxAlloc w).2.hijacked = false) :
    Left P limit after post ((x.run P maxAlloc w).2.body, (x.run P maxAlloc w).2.client) ∧
      (x.run P maxAlloc w).2.client.written = w.client.written ∧
      (x.run P maxAlloc w).2.client.wscript = w.client.wscript := by
  have := run_inv P (fun s => Left P limit after post s ∧ s.2.written = w.client.written ∧ s.2.wscript = w.client.wscript)
    (fun s hs => ⟨left_retrieve P limit after post s hs.1, (retrieve_out P s).1.trans hs.2.1, (retrieve_out P s).2.trans hs.2.2⟩)
    (fun b c a hs => ⟨left_aux P limit after post b c a hs.1, hs.2⟩) maxAlloc x w ⟨h, rfl, rfl⟩ hh
  exact this.2

/-- A handler which does not hijack the connection writes nothing. -/
theorem run_out (P : ChunkedParser σ) (maxAlloc : Nat) {α : Type} (x : Act α) (w : Act.World σ)
    (hh : (x.run P maxAlloc w).2.hijacked = false) :
    (x.run P maxAlloc w).2.client.written = w.client.written ∧ (x.run P maxAlloc w).2.client.wscript = w.client.wscript :=
  (run_inv P (fun s => s.2.written = w.client.written ∧ s.2.wscript = w.client.wscript)
    (fun s hs => ⟨(retrieve_out P s).1.trans hs.1, (retrieve_out P s).2.trans hs.2⟩)
    (fun _ _ _ hs => hs) maxAlloc x w ⟨rfl, rfl⟩ hh).2

/-- What a handler has written comes after what had been written. -/
theorem run_prefix (P : ChunkedParser σ) (maxAlloc : Nat) {α : Type} (x : Act α) : ∀ (w : Act.World σ),
    w.client.written <+: (x.run P maxAlloc w).2.client.written := by
  have hcall : ∀ s k, (Body.call P maxAlloc s k).2.2.written = s.2.written := fun s k =>
    call_inv P (fun t => t.2.written = s.2.written) (fun t ht => (retrieve_out P t).1.trans ht) (fun _ _ _ ht => ht)
      maxAlloc s k rfl
  have hdisc : ∀ s, (Body.discard P (Body.fuel s) s).2.2.written = s.2.written := fun s =>
    discard_inv P (fun t => t.2.written = s.2.written) (fun t ht => (retrieve_out P t).1.trans ht) _ s rfl
  induction x with
  | ret a => intro w; exact List.prefix_refl _
  | panic => intro w; exact List.prefix_refl _
  | body k next ih =>
    intro w
    simp only [Act.run]
    have := ih (Body.call P maxAlloc (w.body, w.client) k).1
      { w with body := (Body.call P maxAlloc (w.body, w.client) k).2.1, client := (Body.call P maxAlloc (w.body, w.client) k).2.2 }
    dsimp only at this
    rw [hcall] at this
    exact this
  | hijack next ih =>
    intro w
    simp only [Act.run]
    have := ih (Body.discard P (Body.fuel (w.body, w.client)) (w.body, w.client)).1
      { body := (Body.discard P (Body.fuel (w.body, w.client)) (w.body, w.client)).2.1,
        client := (Body.discard P (Body.fuel (w.body, w.client)) (w.body, w.client)).2.2,
        hijacked := w.hijacked || (Body.discard P (Body.fuel (w.body, w.client)) (w.body, w.client)).1.isNone }
    dsimp only at this
    rw [hdisc] at this
    exact this
  | read next ih =>
    intro w
    simp only [Act.run]
    split
    · have := ih w.client.read.1.1 w.client.read.1.2 { w with client := w.client.read.2 }
      dsimp only at this
      rw [read_out w.client] at this
      rw [read_out w.client]
      exact this
    · exact ih _ _ w
  | unread b next ih =>
    intro w
    simp only [Act.run]
    split
    · exact ih { w with client := w.client.unread b }
    · exact ih w
  | write b next ih =>
    intro w
    simp only [Act.run]
    split
    · exact (List.prefix_append _ _).trans (ih (w.client.write b).1 { w with client := (w.client.write b).2 })
    · exact ih _ w

end Indigo.Serve
