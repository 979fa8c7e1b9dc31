/-
What the parser leaves in the request object when it reports an error: the method and the version.
-/
import Verif.Proofs.Fault2
import Verif.Spec.Serve
import Verif.Proofs.ParserHead3

namespace Indigo.Parser
open Indigo.Spec

/-- The request object has a protocol whose name can be written. -/
def HasName (p : Proto) : Prop := ∃ v, versionName p = some v

/-- The bytes before the first blank are the method which is in the request object. -/
def MethodIs (s : Bytes) (m : Method) : Prop := ∃ name rest, s = name ++ 32 :: rest ∧ 32 ∉ name ∧ m = Method.parse name

structure SeenAt (l : Label) (p : PState) (a : Bytes) : Prop where
  ok : p.startLine.OK
  state : l = .method → p.state = .method
  before : l = .method → p.startLine.seg = a ∧ 32 ∉ a
  after : l ≠ .method → MethodIs a p.req.Method
  named : HasName p.req.Proto

theorem MethodIs.append {a : Bytes} {m : Method} (h : MethodIs a m) (b : Bytes) : MethodIs (a ++ b) m := by
  obtain ⟨name, rest, rfl, h1, h2⟩ := h
  exact ⟨name, rest ++ b, by simp, h1, h2⟩

/-- What is known when an error is reported after the bytes `s`. -/
def SeenEnd (s : Bytes) (p : PState) (e : Status.HTTPError) : Prop :=
  (e ≠ Status.ErrUnsupportedProtocol → HasName p.req.Proto) ∧
  (e ≠ Status.ErrTooLongRequestLine → (∃ rest, s = 32 :: rest) ∨ MethodIs s p.req.Method)

def SeenStep (a d : Bytes) : Step → Prop
  | .ret p' r => (∀ e, r = .error e → SeenEnd (a ++ d) p' e) ∧ (r = .pending → SeenAt p'.state p' (a ++ d))
  | .goto l' p' d' => ∃ c, d = c ++ d' ∧ SeenAt l' p' (a ++ c)

theorem storeHeader_seen (F : Fold) (p : PState) (k v : Bytes) :
    (storeHeader F p k v).req.Method = p.req.Method ∧ (storeHeader F p k v).req.Proto = p.req.Proto := by
  unfold storeHeader
  dsimp only
  repeat' split
  all_goals exact ⟨rfl, rfl⟩

theorem requestLine_seen (r : Request) (d : Bytes) (hr : HasName r.Proto) :
    (requestLine r d).1.Method = r.Method ∧
    ((requestLine r d).2 ≠ some (.error Status.ErrUnsupportedProtocol) → HasName (requestLine r d).1.Proto) := by
  unfold requestLine
  dsimp only
  repeat' split
  all_goals dsimp only
  all_goals refine ⟨rfl, fun h => ?_⟩
  all_goals first
    | exact absurd rfl h
    | exact hr
    | (rename_i hu
       have := fromBytes_isVersion hu
       obtain ⟨_, h | h | h⟩ := this
       all_goals (rw [h.2]; exact ⟨_, rfl⟩))

/-- After the request line the method, the version and the buffer of the request line stay. -/
def Same (p p' : PState) : Prop :=
  p'.req.Method = p.req.Method ∧ p'.req.Proto = p.req.Proto ∧ p'.startLine = p.startLine

def LateOK (p : PState) : Step → Prop
  | .ret p' (.error _) => Same p p'
  | .ret p' .pending => Same p p' ∧ p'.state ≠ .method
  | .ret _ _ => True
  | .goto l' p' _ => Same p p' ∧ l' ≠ .method

theorem late_same (F : Fold) (l : Label) (p : PState) (d : Bytes) (h1 : l ≠ .method) (h2 : l ≠ .path) :
    LateOK p (step F l p d) := by
  cases l <;> simp only [step]
  · exact absurd rfl h1
  · exact absurd rfl h2
  · unfold stepHeaderKey
    split
    · exact ⟨⟨rfl, rfl, rfl⟩, nofun⟩
    split
    · trivial
    split
    · exact ⟨⟨rfl, rfl, rfl⟩, nofun⟩
    split
    · split
      · exact ⟨rfl, rfl, rfl⟩
      · exact ⟨⟨rfl, rfl, rfl⟩, nofun⟩
    · split
      · exact ⟨rfl, rfl, rfl⟩
      · simp only [Buf.finish]
        split
        · exact ⟨rfl, rfl, rfl⟩
        · exact ⟨⟨rfl, rfl, rfl⟩, (valueLabel_ne _).1⟩
  · unfold stepContentLength
    cases clDigits p.contentLength d with
    | mk n rest =>
    dsimp only
    split
    · exact ⟨⟨rfl, rfl, rfl⟩, nofun⟩
    · split
      · exact ⟨⟨rfl, rfl, rfl⟩, nofun⟩
      split
      · exact ⟨⟨rfl, rfl, rfl⟩, nofun⟩
      · exact ⟨rfl, rfl, rfl⟩
  · unfold stepContentLengthCR
    split
    · exact ⟨⟨rfl, rfl, rfl⟩, nofun⟩
    · split
      · exact ⟨rfl, rfl, rfl⟩
      · exact ⟨⟨rfl, rfl, rfl⟩, nofun⟩
  · unfold stepHeaderValue
    split
    · split
      · exact ⟨rfl, rfl, rfl⟩
      · dsimp only
        split
        · exact ⟨rfl, rfl, rfl⟩
        · exact ⟨⟨rfl, rfl, rfl⟩, nofun⟩
    · split
      · exact ⟨rfl, rfl, rfl⟩
      · simp only [Buf.finish]
        split
        · exact ⟨rfl, rfl, rfl⟩
        · split
          · trivial
          · refine ⟨⟨?_, ?_, ?_⟩, nofun⟩
            · exact (storeHeader_seen _ _ _ _).1
            · exact (storeHeader_seen _ _ _ _).2
            · rfl
  · unfold stepCRLFCR
    split
    · exact ⟨⟨rfl, rfl, rfl⟩, nofun⟩
    · split
      · trivial
      · exact ⟨rfl, rfl, rfl⟩

theorem late_seen (F : Fold) {l : Label} {p : PState} {a d : Bytes} (h : SeenAt l p a) (h1 : l ≠ .method)
    (h2 : l ≠ .path) : SeenStep a d (step F l p d) := by
  have hs := late_same F l p d h1 h2
  have hm := h.after h1
  cases hst : step F l p d with
  | ret p' r =>
    rw [hst] at hs
    refine ⟨fun e he => ?_, fun he => ?_⟩
    · subst he
      obtain ⟨k1, k2, -⟩ := hs
      exact ⟨fun _ => by rw [k2]; exact h.named, fun _ => .inr (by rw [k1]; exact hm.append d)⟩
    · subst he
      obtain ⟨⟨k1, k2, k3⟩, k4⟩ := hs
      exact ⟨by rw [k3]; exact h.ok, fun e => absurd e k4, fun e => absurd e k4, fun _ => by rw [k1]; exact hm.append d,
        by rw [k2]; exact h.named⟩
  | goto l' p' d' =>
    rw [hst] at hs
    obtain ⟨c, rfl⟩ := step_goto_suffix F hst
    obtain ⟨⟨k1, k2, k3⟩, k4⟩ := hs
    exact ⟨c, rfl, by rw [k3]; exact h.ok, fun e => absurd e k4, fun e => absurd e k4, fun _ => by rw [k1]; exact hm.append c,
        by rw [k2]; exact h.named⟩

theorem step_seen (F : Fold) {l : Label} {p : PState} {a d : Bytes} (h : SeenAt l p a) : SeenStep a d (step F l p d) := by
  obtain ⟨ok, hstate, hbefore, hafter, hnamed⟩ := h
  cases l <;> simp only [step]
  · -- method
    obtain ⟨hseg, hno⟩ := hbefore rfl
    have hs := hstate rfl
    unfold stepMethod
    split
    · rename_i hc
      split
      · exact ⟨fun e he => by cases he; exact ⟨fun _ => hnamed, fun h => absurd rfl h⟩, nofun⟩
      · rename_i sl hsl
        refine ⟨nofun, fun _ => ⟨Buf.OK_append ok hsl, fun _ => hs, fun _ => ⟨?_, ?_⟩, fun h => absurd hs h, hnamed⟩⟩
        · show sl.seg = _
          rw [Buf.seg_append' ok hsl, hseg]
        · have := cut_none.1 hc
          simp only [List.mem_append, not_or]
          exact ⟨hno, this⟩
    · rename_i m rest hc
      obtain ⟨rfl, hm⟩ := cut_some hc
      split
      · exact ⟨fun e he => by cases he; exact ⟨fun _ => hnamed, fun h => absurd rfl h⟩, nofun⟩
      · rename_i mv sl hsl
        have key : mv = a ++ m ∧ sl.OK := by
          unfold takeMethod at hsl
          split at hsl
          · rename_i h0
            have : p.startLine.seg.length = 0 := by rw [← h0]; simp [Buf.seg, Buf.segLen]
            rw [hseg] at this
            rw [List.length_eq_zero_iff.1 this]
            simp at hsl
            exact ⟨hsl.1.symm, by rw [← hsl.2]; exact ok⟩
          · split at hsl
            · simp at hsl
            · rename_i b' hb'
              have h1 := Buf.seg_append' ok hb'
              simp only [Buf.finish, Option.some.injEq, Prod.mk.injEq] at hsl
              refine ⟨by rw [← hsl.1, h1, hseg], ?_⟩
              rw [← hsl.2]
              simp [Buf.OK]
        obtain ⟨rfl, hok⟩ := key
        have hSP : ∀ rest : Bytes, a ++ (m ++ SP :: rest) = (a ++ m) ++ 32 :: rest := by simp [SP]
        have h32 : 32 ∉ a ++ m := by simp only [List.mem_append, not_or]; exact ⟨hno, hm⟩
        unfold finishMethod
        split
        · rename_i h0
          refine ⟨fun e he => by
            cases he
            refine ⟨fun _ => hnamed, fun _ => .inl ⟨rest, ?_⟩⟩
            rw [hSP, List.length_eq_zero_iff.1 h0]; rfl, nofun⟩
        · dsimp only
          split
          · refine ⟨fun e he => ?_, nofun⟩
            cases he
            exact ⟨fun _ => hnamed, fun _ => .inr ⟨a ++ m, rest, hSP rest, h32, rfl⟩⟩
          · exact ⟨m ++ [SP], by simp, hok, nofun, nofun, fun _ => ⟨a ++ m, [], by simp [SP], h32, rfl⟩, hnamed⟩
  · -- path
    have hm := hafter (by simp)
    unfold stepPath
    split
    · split
      · exact ⟨fun e he => by cases he; exact ⟨fun _ => hnamed, fun _ => .inr (hm.append d)⟩, nofun⟩
      · rename_i sl hsl
        exact ⟨nofun, fun _ => ⟨Buf.OK_append ok hsl, nofun, nofun, fun _ => hm.append d, hnamed⟩⟩
    · rename_i line rest hc
      obtain ⟨rfl, -⟩ := cut_some hc
      split
      · exact ⟨fun e he => by cases he; exact ⟨fun _ => hnamed, fun _ => .inr (hm.append _)⟩, nofun⟩
      · rename_i sl hsl
        dsimp only
        unfold finishPath
        dsimp only
        obtain ⟨k1, k2⟩ := requestLine_seen p.req sl.finish.1 hnamed
        cases hrl : requestLine p.req sl.finish.1 with
        | mk r o =>
          rw [hrl] at k1 k2
          cases o with
          | some out =>
            refine ⟨fun e he => ?_, fun he => ?_⟩
            · subst he
              exact ⟨fun h => k2 (by intro hx; cases hx; exact h rfl), fun _ => .inr (by
                show MethodIs _ r.Method
                rw [k1]; exact hm.append _)⟩
            · subst he
              exfalso
              revert hrl
              unfold requestLine
              dsimp only
              repeat' split
              all_goals simp
          | none =>
            refine ⟨line ++ [LF], by simp, by simp [Buf.OK, Buf.finish], nofun, nofun, fun _ => ?_, k2 nofun⟩
            show MethodIs _ r.Method
            rw [k1]; exact hm.append _
  all_goals
    have hm := hafter (by simp)
  · exact late_seen F (l := .headerKey) ⟨ok, hstate, hbefore, hafter, hnamed⟩ nofun nofun
  · exact late_seen F (l := .contentLength) ⟨ok, hstate, hbefore, hafter, hnamed⟩ nofun nofun
  · exact late_seen F (l := .contentLengthCR) ⟨ok, hstate, hbefore, hafter, hnamed⟩ nofun nofun
  · exact late_seen F (l := .headerValue) ⟨ok, hstate, hbefore, hafter, hnamed⟩ nofun nofun
  · exact late_seen F (l := .headerValueCRLFCR) ⟨ok, hstate, hbefore, hafter, hnamed⟩ nofun nofun

/-- Whatever the splitting of a stream, from the first byte of a head on. -/
theorem feed_seen (F : Fold) (p : PState) (hs : p.state = .method) (ok : p.startLine.OK) (h0 : p.startLine.seg = [])
    (hn : HasName p.req.Proto) (segs : List Bytes) {p' : PState} {e : Status.HTTPError} {rest}
    (h : feed F p segs = (p', PRes.error e, rest)) : SeenEnd segs.flatten p' e := by
  have := feed_inv F segs.flatten (fun l p a => SeenAt l p a)
    (fun p' r => ∀ e, r = PRes.error e → ∃ s, s <+: segs.flatten ∧ SeenEnd s p' e)
    (fun l p a d p' r hpre hI hst => by
      have := step_seen F (d := d) hI
      rw [hst] at this
      exact ⟨fun e he => ⟨_, hpre, this.1 e he⟩, this.2⟩)
    (fun l p a d l' p' d' _ hI hst => by
      have := step_seen F (d := d) hI
      rw [hst] at this
      exact this)
    (fun _ _ _ => nofun) segs p [] rfl (by rw [hs]; exact ⟨ok, fun _ => hs, fun _ => ⟨h0, nofun⟩, fun h => absurd rfl h, hn⟩)
  rw [h] at this
  obtain ⟨s, ⟨t, ht⟩, h1, h2⟩ := this e rfl
  refine ⟨h1, fun he => ?_⟩
  rw [← ht]
  exact (h2 he).imp (fun ⟨r, hr⟩ => ⟨r ++ t, by rw [hr]; rfl⟩) (·.append t)

/-- The method in the request object is the one named. -/
theorem seen_method {s : Bytes} {m m' : Method} (h : (∃ rest, s = 32 :: rest) ∨ MethodIs s m) (hm : NamesMethod s m') : m = m' := by
  obtain ⟨name, rest, rfl, h1, h2, h3⟩ := hm
  rcases h with ⟨r, hr⟩ | ⟨name', rest', h4, h5, rfl⟩
  · cases name with
    | nil => exact absurd rfl h2
    | cons c cs =>
      simp only [List.cons_append, List.cons.injEq] at hr
      rw [hr.1] at h1
      simp at h1
  · have e1 := cut_append (b := rest) h1
    rw [h4, cut_append h5] at e1
    cases e1
    rcases h3 with ⟨h6, h7⟩ | ⟨rfl, h7⟩
    · exact (Props.C15_method_recognised_iff _ _ h6).2 h7
    · by_cases hu : Method.parse name = .Unknown
      · exact hu
      · exact absurd ((Props.C15_method_recognised_iff name _ hu).1 rfl) (h7 _ hu)

end Indigo.Parser
