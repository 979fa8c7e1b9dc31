/-
What holds of the request object, whatever the parser is fed with.
-/
import Verif.Proofs.Reject
import Verif.Proofs.ServeParser
import Verif.Proofs.Serve2
import Verif.Proofs.PathSeen

namespace Indigo.Parser
open Indigo.Spec

/-- The request object names a version the server supports. -/
def Versioned (r : Request) : Prop := ∃ v, versionName r.Proto = some v

/-- The request object has what a request line says. -/
def Lined (r : Request) : Prop := Versioned r ∧ r.Path ≠ [] ∧ r.Method ≠ .Unknown

/-- Protocols which can be asked for. -/
def Known (p : Proto) : Prop := p ∈ [Proto.Unknown, Proto.HTTP10, Proto.HTTP11, Proto.HTTP2]

/-- The parser at a label: after the request line there are a method, a path and a version. -/
structure At (l : Label) (p : PState) : Prop where
  state : l = .method → p.state = .method
  version : l ≠ .method → l ≠ .path → Lined p.req
  upgrade : Known p.req.Upgrade
  method : l = .path → p.req.Method ≠ .Unknown

/-- What a call of `Parse` leads to. -/
def AtRes (p p' : PState) : PRes → Prop
  | .pending => At p'.state p' ∧ (Versioned p.req → Versioned p'.req)
  | .completed _ => Lined p'.req ∧ Known p'.req.Upgrade ∧ p'.state = .method
  | .error e => e ∈ errors ∧ (e ≠ Status.ErrUnsupportedProtocol → Versioned p.req → Versioned p'.req)
  | .panic => True

def AtStep (p : PState) : Step → Prop
  | .ret p' r => AtRes p p' r
  | .goto l p' _ => At l p' ∧ l ≠ .method ∧ (Versioned p.req → Versioned p'.req)

theorem versioned_supported {s : Bytes} (h : Proto.fromBytes s ≠ Proto.Unknown) : ∃ v, versionName (Proto.fromBytes s) = some v :=
  Serve.named_version (fromBytes_isVersion h)

/-- What becomes of the version. -/
def LineOut (r r' : Request) : Option PRes → Prop
  | none => Versioned r' ∧ r'.Path ≠ [] ∧ r'.Method = r.Method
  | some (.error e) => e ∈ errors ∧ (e ≠ Status.ErrUnsupportedProtocol → r'.Proto = r.Proto)
  | _ => True

theorem requestLine_version (r : Request) (line : Bytes) :
    (requestLine r line).1.Upgrade = r.Upgrade ∧ LineOut r (requestLine r line).1 (requestLine r line).2 := by
  unfold requestLine
  dsimp only
  repeat' split
  all_goals first
    | exact ⟨rfl, trivial⟩
    | exact ⟨rfl, by decide, fun _ => rfl⟩
    | exact ⟨rfl, by decide, fun h => absurd rfl h⟩
    | exact ⟨rfl, versioned_supported (by assumption), decode_ne (by assumption) (by intro e; simp_all), rfl⟩

theorem storeHeader_version (F : Fold) (p : PState) (k v : Bytes) :
    (storeHeader F p k v).req.Proto = p.req.Proto ∧ (storeHeader F p k v).req.Path = p.req.Path ∧
      (storeHeader F p k v).req.Method = p.req.Method ∧ (Known p.req.Upgrade → Known (storeHeader F p k v).req.Upgrade) := by
  unfold storeHeader
  dsimp only
  split
  · exact ⟨rfl, rfl, rfl, fun _ => Serve.chooseUpgrade_range v⟩
  · repeat' split
    all_goals exact ⟨rfl, rfl, rfl, id⟩

theorem step_at (F : Fold) (l : Label) (p : PState) (d : Bytes) (h : At l p) : AtStep p (step F l p d) := by
  cases l <;> simp only [step]
  · unfold stepMethod
    have hs := h.state rfl
    split
    · split
      · exact ⟨by decide, fun _ h => h⟩
      · refine ⟨⟨fun _ => hs, fun h => absurd hs h, h.upgrade, fun e => ?_⟩, id⟩
        have : p.state = .path := e
        rw [hs] at this; cases this
    · split
      · exact ⟨by decide, fun _ h => h⟩
      · unfold finishMethod
        dsimp only
        split
        · exact ⟨by decide, fun _ h => h⟩
        · split
          · exact ⟨by decide, fun _ h => h⟩
          · rename_i hm
            exact ⟨⟨nofun, fun _ h => absurd rfl h, h.upgrade, fun _ => hm⟩, nofun, id⟩
  · unfold stepPath
    split
    · split
      · exact ⟨by decide, fun _ h => h⟩
      · exact ⟨⟨nofun, fun _ h => absurd rfl h, h.upgrade, fun _ => h.method rfl⟩, id⟩
    · split
      · exact ⟨by decide, fun _ h => h⟩
      · rename_i rest _ _ sl _
        obtain ⟨h1, h2⟩ := requestLine_version p.req sl.finish.1
        show AtStep p (finishPath { p with startLine := sl.finish.2 } sl.finish.1 rest)
        unfold finishPath
        dsimp only
        rcases hr : requestLine p.req sl.finish.1 with ⟨r, o⟩
        rw [hr] at h1 h2
        rcases o with _ | o
        · exact ⟨⟨nofun, fun _ _ => ⟨h2.1, h2.2.1, by rw [show r.Method = p.req.Method from h2.2.2]; exact h.method rfl⟩, h1 ▸ h.upgrade, nofun⟩, nofun, fun _ => h2.1⟩
        · have ho := requestLine_out p.req sl.finish.1
          rw [hr] at ho
          cases o with
          | panic => trivial
          | pending => simp at ho
          | completed x => simp at ho
          | error e =>
            refine ⟨h2.1, fun he hv => ?_⟩
            show ∃ v, versionName r.Proto = some v
            rw [show r.Proto = p.req.Proto from h2.2 he]; exact hv
  · have hv := h.version nofun nofun
    unfold stepHeaderKey
    split
    · exact ⟨⟨nofun, fun _ _ => hv, h.upgrade, nofun⟩, id⟩
    · split
      · exact ⟨hv, h.upgrade, rfl⟩
      · split
        · exact ⟨⟨nofun, fun _ _ => hv, h.upgrade, nofun⟩, nofun, id⟩
        · split
          · split
            · exact ⟨by decide, fun _ h => h⟩
            · exact ⟨⟨nofun, fun _ _ => hv, h.upgrade, nofun⟩, id⟩
          · split
            · exact ⟨by decide, fun _ h => h⟩
            · dsimp only
              split
              · exact ⟨by decide, fun _ h => h⟩
              · exact ⟨⟨fun e => absurd e (valueLabel_ne _).1, fun _ _ => hv, h.upgrade, fun e => absurd e (valueLabel_ne _).2⟩, (valueLabel_ne _).1, id⟩
  · have hv := h.version nofun nofun
    unfold stepContentLength
    dsimp only
    split
    · exact ⟨⟨nofun, fun _ _ => hv, h.upgrade, nofun⟩, id⟩
    · split
      · exact ⟨⟨nofun, fun _ _ => hv, h.upgrade, nofun⟩, nofun, id⟩
      · split
        · exact ⟨⟨nofun, fun _ _ => hv, h.upgrade, nofun⟩, nofun, id⟩
        · exact ⟨by decide, fun _ h => h⟩
  · have hv := h.version nofun nofun
    unfold stepContentLengthCR
    split
    · exact ⟨⟨nofun, fun _ _ => hv, h.upgrade, nofun⟩, id⟩
    · split
      · exact ⟨by decide, fun _ h => h⟩
      · exact ⟨⟨nofun, fun _ _ => hv, h.upgrade, nofun⟩, nofun, id⟩
  · have hv := h.version nofun nofun
    unfold stepHeaderValue
    split
    · split
      · exact ⟨by decide, fun _ h => h⟩
      · dsimp only
        split
        · exact ⟨by decide, fun _ h => h⟩
        · exact ⟨⟨nofun, fun _ _ => hv, h.upgrade, nofun⟩, id⟩
    · split
      · exact ⟨by decide, fun _ h => h⟩
      · dsimp only
        split
        · exact ⟨by decide, fun _ h => h⟩
        · split
          · trivial
          · rename_i sl _ _ _ last _
            refine ⟨⟨nofun, fun _ _ => ?_, ?_, nofun⟩, nofun, fun _ => ?_⟩
            · obtain ⟨a, b, c, -⟩ := storeHeader_version F { p with valBuf := sl.finish.2 } p.headerKey (if last = CR then (trimLeftSp sl.finish.1).dropLast else trimLeftSp sl.finish.1)
              refine ⟨?_, ?_, ?_⟩
              · unfold Versioned; rw [a]; exact hv.1
              · rw [b]; exact hv.2.1
              · rw [c]; exact hv.2.2
            · exact (storeHeader_version F _ _ _).2.2.2 h.upgrade
            · unfold Versioned; rw [(storeHeader_version F _ _ _).1]; exact hv.1
  · have hv := h.version nofun nofun
    unfold stepCRLFCR
    split
    · exact ⟨⟨nofun, fun _ _ => hv, h.upgrade, nofun⟩, id⟩
    · split
      · exact ⟨hv, h.upgrade, rfl⟩
      · exact ⟨by decide, fun _ h => h⟩

theorem AtRes.trans {p q r : PState} {res : PRes} (h : Versioned p.req → Versioned q.req) (h' : AtRes q r res) : AtRes p r res := by
  cases res with
  | pending => exact ⟨h'.1, fun x => h'.2 (h x)⟩
  | completed x => exact h'
  | error e => exact ⟨h'.1, fun he x => h'.2 he (h x)⟩
  | panic => trivial

theorem exec_at (F : Fold) : ∀ (l : Label) (p : PState) (d : Bytes), At l p → AtRes p (exec F l p d).1 (exec F l p d).2 := by
  refine exec_induct F (motive := fun l p d => At l p → AtRes p (exec F l p d).1 (exec F l p d).2) ?_
  intro l p d ih hat
  have h := step_at F l p d hat
  rw [exec_eq]
  cases hs : step F l p d with
  | ret p' r => rw [hs] at h; exact h
  | goto l' p' d' =>
    rw [hs] at h
    exact AtRes.trans h.2.2 (ih l' p' d' hs h.1)

/-- Whatever bytes come, in the middle of a head or not. -/
theorem parse_at (F : Fold) (p : PState) (d : Bytes) (h : At p.state p) : AtRes p (parse F p d).1 (parse F p d).2 := by
  rw [parse_eq_exec]; exact exec_at F _ p d h

end Indigo.Parser
