/-
What a refused request line leaves in the request object.
-/
import Verif.Proofs.FaultRead

namespace Indigo.Parser
open Indigo.Spec

/-- Path and version are left alone, unless it is the version which is refused. -/
theorem requestLine_left {r r' : Request} {line : Bytes} {e : Status.HTTPError} (h : requestLine r line = (r', some (.error e)))
    (he : e ≠ Status.ErrUnsupportedProtocol) : r'.Path = r.Path ∧ r'.Proto = r.Proto := by
  unfold requestLine at h
  dsimp only at h
  repeat' split at h
  all_goals
    simp only [Prod.mk.injEq, Option.some.injEq, PRes.error.injEq, reduceCtorEq, and_false] at h
  all_goals
    obtain ⟨rfl, rfl⟩ := h
    first
      | exact ⟨rfl, rfl⟩
      | exact absurd rfl he

/-- If it is the version, then they are the ones of the line. -/
theorem requestLine_unknown {r r' : Request} {line : Bytes} (h : requestLine r line = (r', some (.error Status.ErrUnsupportedProtocol)))
    {target version : Bytes} {query : Option Bytes} (h63 : 63 ∉ target) (h32 : 32 ∉ version) (hl : line = target ++ queryPart query ++ 32 :: version) :
    Unescapes target r'.Path ∧ r'.Query.raw = query.getD r.Query.raw ∧ r'.Proto = Proto.Unknown := by
  have hquest : cut QUEST (target ++ queryPart query) = (match query with | none => none | some q => some (target, q)) := by
    cases query with
    | none => simp [cut_none.2 h63, QUEST, queryPart]
    | some q => exact cut_append h63
  subst hl
  unfold requestLine at h
  rw [show cutLast SP (target ++ queryPart query ++ 32 :: version) = some (target ++ queryPart query, version) from cutLast_append h32] at h
  dsimp only at h
  cases hv : version.getLast? with
  | none => rw [hv] at h; simp at h
  | some last =>
    rw [hv, hquest] at h
    dsimp only at h
    generalize (if last = CR then version.dropLast else version) = v at h
    cases query with
    | none =>
      simp only [queryPart, List.append_nil] at h
      cases hd : UriDecode.Decode target with
      | none =>
        simp only [hd] at h
        split at h <;> exact absurd (congrArg Prod.snd h) (by dsimp only; decide)
      | some s =>
        simp only [hd] at h
        have hu : Unescapes target s := by rw [UriDecode.Decode_eq] at hd; exact UriDecode.unescapes_of_pct hd
        split at h
        · exact absurd (congrArg Prod.snd h) (by dsimp only; decide)
        · split at h
          · rename_i hp
            have := congrArg Prod.fst h
            dsimp only at this
            subst this
            exact ⟨hu, rfl, hp⟩
          · simp at h
    | some q =>
      simp only at h
      cases hd : UriDecode.Decode target with
      | none =>
        simp only [hd] at h
        split at h <;> exact absurd (congrArg Prod.snd h) (by dsimp only; decide)
      | some s =>
        simp only [hd] at h
        have hu : Unescapes target s := by rw [UriDecode.Decode_eq] at hd; exact UriDecode.unescapes_of_pct hd
        split at h
        · exact absurd (congrArg Prod.snd h) (by dsimp only; decide)
        · split at h
          · rename_i hp
            have := congrArg Prod.fst h
            dsimp only at this
            subst this
            refine ⟨hu, ?_, hp⟩
            simp only [Query.set, Option.getD_some]
            split <;> rfl
          · simp at h

/-- A faulty request line is no faultless one. -/
theorem noFirstLine_fault {L : Limits} {k : Method} (hk : k ≠ .Unknown) {line rest : Bytes} {e : Status.HTTPError} (h2 : 10 ∉ line)
    (h4 : LineFault (methodName k) line e) : NoFirstLine L (methodName k ++ 32 :: (line ++ 10 :: rest)) := by
  intro hd rest' ok hesc hl e
  obtain ⟨s, hs⟩ := pct_of_escapable hesc
  have hd' : UriDecode.Decode hd.target = some s := by rw [UriDecode.Decode_eq]; exact hs
  rw [Head.firstLine, List.append_assoc, List.cons_append] at e
  obtain ⟨_, e2⟩ := cut_unique e (methodName_facts k hk).1 (methodName_facts _ ok.method).1
  rw [show hd.line ++ eol hd.crlf ++ rest' = fullLine hd ++ 10 :: rest' by simp [fullLine, eol_eq]] at e2
  have e3 := (cut_unique e2 h2 (fullLine_lf ok)).1
  have := requestLine_fault hk h4 ({ } : Request)
  rw [e3, requestLine_head ok hd'] at this
  cases this

theorem exec_left (F : Fold) {p : PState} (hp : Ready p) {s : Bytes} {e : Status.HTTPError} (h : HeadFault (limits p) s e) (bad : NoFirstLine (limits p) s) :
    (e ≠ Status.ErrUnsupportedProtocol → (exec F .method p s).1.req.Path = p.req.Path ∧ (exec F .method p s).1.req.Proto = p.req.Proto) ∧
    (∀ k target query version rest, s = methodName k ++ 32 :: (target ++ queryPart query ++ 32 :: (version ++ 10 :: rest)) → k ≠ .Unknown →
      63 ∉ target → 32 ∉ version → 10 ∉ target ++ queryPart query ++ 32 :: version → e = Status.ErrUnsupportedProtocol →
      Unescapes target (exec F .method p s).1.req.Path ∧ (exec F .method p s).1.req.Query.raw = query.getD p.req.Query.raw ∧
        (exec F .method p s).1.req.Proto = Proto.Unknown) := by
  have hs : p.startLine.segLen = 0 := by simp [Buf.segLen, hp.startLine.1]
  have methods : ∀ {m t : Bytes}, 32 ∉ m → (∀ k : Method, k ≠ .Unknown → m ≠ methodName k) →
      (exec F .method p (m ++ 32 :: t)).1.req.Path = p.req.Path ∧ (exec F .method p (m ++ 32 :: t)).1.req.Proto = p.req.Proto := by
    intro m t h1 hu
    rw [exec_eq]
    simp only [step, stepMethod]
    rw [show SP = 32 from rfl, cut_append h1]
    simp only [takeMethod, hs, if_true, finishMethod]
    by_cases hm : m.length = 0
    · rw [if_pos hm]; exact ⟨rfl, rfl⟩
    · rw [if_neg hm]
      have : Method.parse m = .Unknown := by
        cases Decidable.em (Method.parse m = .Unknown) with
        | inl h => exact h
        | inr h => exact absurd ((Props.C15_method_recognised_iff m _ h).1 rfl) (hu _ h)
      rw [if_pos this]
      exact ⟨rfl, rfl⟩
  cases h with
  | noMethod rest => exact ⟨fun _ => methods (m := []) (by simp) (fun k hk e => (methodName_facts k hk).2.1 e.symm), fun _ _ _ _ _ _ _ _ _ _ h => absurd h (by decide)⟩
  | unknownMethod m rest h1 hne hu => exact ⟨fun _ => methods h1 (fun k _ => hu k), fun _ _ _ _ _ _ _ _ _ _ h => absurd h (by decide)⟩
  | line m line rest _ h1 h2 h3 h4 =>
    by_cases hk : ∃ k : Method, k ≠ .Unknown ∧ m = methodName k
    case neg =>
      refine ⟨fun _ => methods h1 (fun k hk' e => hk ⟨k, hk', e⟩), fun k _ _ _ _ h hk' _ _ _ _ => ?_⟩
      exact absurd ⟨k, hk', (cut_unique h h1 (methodName_facts k hk').1).1⟩ hk
    obtain ⟨k, hk, rfl⟩ := hk
    have hb : p.startLine.append line = some { p.startLine with mem := line } := by
      simp [Buf.append, hp.startLine.1]; simp only [limits] at h3; omega
    have hf := requestLine_fault hk h4 { p.req with Method := k }
    rcases hr : requestLine { p.req with Method := k } line with ⟨r, o⟩
    rw [hr] at hf
    dsimp only at hf
    subst hf
    have hx : (exec F .method p (methodName k ++ 32 :: (line ++ 10 :: rest))).1.req = r := by
      rw [exec_goto (exec_method F hp hk _), exec_eq]
      simp only [step, stepPath]
      rw [show LF = 10 from rfl, cut_append h2]
      simp only [hb, Buf.finish, Buf.seg, hp.startLine.2, List.drop_zero, finishPath, hr]
    rw [hx]
    refine ⟨fun he => (by have := requestLine_left hr he; exact this), fun k' target query version rest' h hk' h63 h32 hlf he => ?_⟩
    subst he
    obtain ⟨_, e2⟩ := cut_unique h h1 (methodName_facts k' hk').1
    rw [show target ++ queryPart query ++ 32 :: (version ++ 10 :: rest') = (target ++ queryPart query ++ 32 :: version) ++ 10 :: rest' by simp] at e2
    exact requestLine_unknown hr h63 h32 (cut_unique e2 h2 hlf).1
  | fields h rest _ ok hesc hl hsec =>
    exact absurd (by simp [Head.firstLine]) (bad h rest ok hesc hl)

/-- The same, however the stream is cut into segments. -/
theorem feed_left (F : Fold) (p : PState) (hp : Ready p) (segs : List Bytes) {e : Status.HTTPError}
    (fits : RequestLineFits p.startLine.max segs.flatten) (clean : CleanStream segs.flatten) (fault : HeadFault (limits p) segs.flatten e) :
    (feed F p segs).1.req = (exec F .method p segs.flatten).1.req := by
  have hfeed := feed_eq F segs p (hp.cond fits clean)
  have hx := head_fault F hp fault
  rw [hp.state] at hfeed
  rcases hf : feed F p segs with ⟨p', r, rest⟩
  rw [hf] at hfeed
  cases r with
  | completed ex =>
    simp only [FeedRel] at hfeed
    rw [hfeed] at hx
    cases hx
  | pending => exact absurd (hfeed.1.symm.trans hx) nofun
  | panic => exact absurd (hfeed.1.symm.trans hx) nofun
  | error e' => exact hfeed.2.symm

end Indigo.Parser
