/-
What is stored of a request head, measured against the maxima of the buffers.
-/
import Verif.Proofs.ParserInv

namespace Indigo.UriDecode

theorem decodeLoop_length : ∀ (fuel : Nat) (src buff out : Bytes), decodeLoop fuel src buff = some out →
    out.length ≤ buff.length + src.length := by
  intro fuel
  induction fuel with
  | zero => intro src buff out h; simp [decodeLoop] at h
  | succ fuel ih =>
    intro src buff out h
    unfold decodeLoop at h
    split at h
    · split at h <;> · simp at h; subst h; simp
    · rename_i pre rest hc
      obtain ⟨rfl, _⟩ := cut_some hc
      split at h
      · have := ih _ _ _ h
        simp at this ⊢; omega
      · cases h

theorem Decode_length {src out : Bytes} (h : Decode src = some out) : out.length ≤ src.length := by
  have := decodeLoop_length _ _ _ _ h
  simpa using this

end Indigo.UriDecode

namespace Indigo.Parser

/-- Bytes of all the names, of all the values. -/
def keysLen (ps : List Pair) : Nat := (ps.map fun x => x.Key.length).sum
def valuesLen (ps : List Pair) : Nat := (ps.map fun x => x.Value.length).sum

structure SumAt (p0 : PState) (l : Label) (p : PState) : Prop where
  lim : LimAt p0 l p
  okK : p.keyBuf.start ≤ p.keyBuf.mem.length
  okV : p.valBuf.start ≤ p.valBuf.mem.length
  keys : keysLen p.req.Headers.pairs + (if l = .headerValue then p.headerKey.length else 0) ≤ p.keyBuf.start
  vals : valuesLen p.req.Headers.pairs ≤ p.valBuf.start
  path : p.req.Path.length ≤ p0.startLine.max
  query : p.req.Query.raw.length ≤ p0.startLine.max
  line : l ≠ .method → l ≠ .path → p.req.Path.length + p.req.Query.raw.length + 1 ≤ p0.startLine.max
  fresh : l = .method ∨ l = .path → p.req.Query.raw = []

def SumOut (p0 p : PState) : Prop :=
  keysLen p.req.Headers.pairs ≤ p0.keyBuf.max ∧ valuesLen p.req.Headers.pairs ≤ p0.valBuf.max ∧
  p.req.Path.length ≤ p0.startLine.max ∧ p.req.Query.raw.length ≤ p0.startLine.max

theorem SumAt.out {p0 : PState} {l : Label} {p : PState} (h : SumAt p0 l p) : SumOut p0 p := by
  obtain ⟨L, a, b, c, d, e, f, _, _⟩ := h
  have h1 := L.1.memK
  have h2 := L.1.memV
  rw [L.1.maxK] at h1
  rw [L.1.maxV] at h2
  exact ⟨by omega, by omega, e, f⟩

def SumStep (p0 : PState) : Step → Prop
  | .ret p' r => SumOut p0 p' ∧ (r = .pending → SumAt p0 p'.state p') ∧
      ∀ x, r = .completed x → p'.req.Path.length + p'.req.Query.raw.length + 1 ≤ p0.startLine.max
  | .goto l' p' _ => SumAt p0 l' p'

theorem Query.set_raw (q : Query) (s : Bytes) : (q.set s).raw = s := by
  unfold Query.set; split <;> rfl

theorem requestLine_len (r : Request) (line : Bytes) (h : r.Query.raw = []) :
    ((requestLine r line).1.Path = r.Path ∨ (requestLine r line).1.Path.length ≤ line.length) ∧
    (requestLine r line).1.Query.raw.length ≤ line.length ∧
    ((requestLine r line).2 = none →
      (requestLine r line).1.Path.length + (requestLine r line).1.Query.raw.length + 1 ≤ line.length) := by
  unfold requestLine
  split
  · simp [h]
  · rename_i a b hc
    obtain ⟨rfl, _⟩ := cutLast_some hc
    split
    · simp [h]
    · dsimp only
      cases hq : cut QUEST a with
      | none =>
        dsimp only
        split
        · simp [h]
        · split
          · simp [h]
          · rename_i dec hd
            have := UriDecode.Decode_length hd
            repeat' split
            all_goals (simp [h]; omega)
      | some pq =>
        obtain ⟨pa, qu⟩ := pq
        obtain ⟨rfl, _⟩ := cut_some hq
        dsimp only
        split
        · simp [Query.set_raw]; omega
        · split
          · simp [Query.set_raw]; omega
          · rename_i dec hd
            have := UriDecode.Decode_length hd
            repeat' split
            all_goals (simp [Query.set_raw]; omega)

theorem storeHeader_line (F : Fold) (p : PState) (k v : Bytes) :
    (storeHeader F p k v).req.Path = p.req.Path ∧ (storeHeader F p k v).req.Query = p.req.Query := by
  unfold storeHeader
  simp only
  repeat' split
  all_goals exact ⟨rfl, rfl⟩

theorem keysLen_snoc (ps : List Pair) (k v : Bytes) : keysLen (ps ++ [⟨k, v⟩]) = keysLen ps + k.length := by
  simp [keysLen]

theorem valuesLen_snoc (ps : List Pair) (k v : Bytes) : valuesLen (ps ++ [⟨k, v⟩]) = valuesLen ps + v.length := by
  simp [valuesLen]

theorem step_sum (F : Fold) (p0 : PState) {l : Label} {p : PState} {d : Bytes} (h : SumAt p0 l p) :
    SumStep p0 (step F l p d) := by
  have ho := h.out
  have hl := step_lim F p0 (d := d) h.lim
  obtain ⟨L, okK, okV, keys, vals, path, query, line, fresh⟩ := h
  revert hl
  cases l <;> simp only [step]
  · -- method
    unfold stepMethod
    split
    · split
      · exact fun _ => ⟨ho, (fun e => by cases e), fun _ e => by cases e⟩
      · intro hl
        have hm := L.2.2 rfl
        exact ⟨ho, fun _ => ⟨hl.2 rfl, okK, okV, by simp [hm] at keys ⊢; exact keys, vals, path, query, (fun h _ => absurd hm h), fun _ => fresh (.inl rfl)⟩, fun _ e => by cases e⟩
    · split
      · exact fun _ => ⟨ho, (fun e => by cases e), fun _ e => by cases e⟩
      · unfold finishMethod
        split
        · exact fun _ => ⟨ho, (fun e => by cases e), fun _ e => by cases e⟩
        · dsimp only
          split
          · exact fun _ => ⟨ho, (fun e => by cases e), fun _ e => by cases e⟩
          · exact fun hl => ⟨hl, okK, okV, by simpa using keys, vals, path, query, (fun _ h => absurd rfl h), fun _ => fresh (.inl rfl)⟩
  · -- path
    unfold stepPath
    split
    · split
      · exact fun _ => ⟨ho, (fun e => by cases e), fun _ e => by cases e⟩
      · exact fun hl => ⟨ho, fun _ => ⟨hl.2 rfl, okK, okV, by simpa using keys, vals, path, query, (fun _ h => absurd rfl h), fun _ => fresh (.inr rfl)⟩, fun _ e => by cases e⟩
    · split
      · exact fun _ => ⟨ho, (fun e => by cases e), fun _ e => by cases e⟩
      · rename_i sl hsl
        obtain ⟨h1, h2, h3, h4⟩ := Buf.append_mem hsl
        simp only [Buf.finish, finishPath]
        have hh := requestLine_headers p.req sl.seg
        obtain ⟨hp1, hq1, hs1⟩ := requestLine_len p.req sl.seg (fresh (.inr rfl))
        have hout := requestLine_out p.req sl.seg
        have hseg : sl.seg.length ≤ p0.startLine.max := by
          have := L.1.maxS
          simp [Buf.seg]; omega
        cases hrl : requestLine p.req sl.seg with
        | mk r out =>
        rw [hrl] at hh hout hp1 hq1 hs1
        simp only at hh hout hp1 hq1 hs1
        have hpath : r.Path.length ≤ p0.startLine.max := by
          rcases hp1 with h | h
          · rw [h]; exact path
          · omega
        cases out with
        | some o =>
          intro hl
          refine ⟨⟨by simpa only [hh] using ho.1, by simpa only [hh] using ho.2.1, hpath, by simp only; omega⟩, ?_, ?_⟩
          · intro e; subst e; simp at hout
          · intro x e; subst e; simp at hout
        | none =>
          intro hl
          have := hs1 rfl
          exact ⟨hl, okK, okV, by simpa [hh] using keys, by simpa [hh] using vals, hpath, by simp only; omega,
            (fun _ _ => by simp only; omega), (fun e => by rcases e with e | e <;> cases e)⟩
  · -- headerKey
    unfold stepHeaderKey
    split
    · exact fun hl => ⟨ho, fun _ => ⟨hl.2 rfl, okK, okV, by simpa using keys, vals, path, query, (fun _ _ => line (by simp) (by simp)), (fun e => by rcases e with e | e <;> cases e)⟩, fun _ e => by cases e⟩
    · split
      · exact fun _ => ⟨ho, (fun e => by cases e), fun _ _ => line (by simp) (by simp)⟩
      split
      · exact fun hl => ⟨hl, okK, okV, by simpa using keys, vals, path, query, (fun _ _ => line (by simp) (by simp)), (fun e => by rcases e with e | e <;> cases e)⟩
      split
      · split
        · exact fun _ => ⟨ho, (fun e => by cases e), fun _ e => by cases e⟩
        · rename_i kb hkb
          obtain ⟨h1, h2, h3, h4⟩ := Buf.append_mem hkb
          exact fun hl => ⟨ho, fun _ => ⟨hl.2 rfl, by simp only [h1, h3]; simp; omega, okV, by simpa [h3] using keys, vals, path, query, (fun _ _ => line (by simp) (by simp)), (fun e => by rcases e with e | e <;> cases e)⟩, fun _ e => by cases e⟩
      · split
        · exact fun _ => ⟨ho, (fun e => by cases e), fun _ e => by cases e⟩
        · rename_i kb hkb
          obtain ⟨h1, h2, h3, h4⟩ := Buf.append_mem hkb
          simp only [Buf.finish]
          split
          · exact fun _ => ⟨ho, (fun e => by cases e), fun _ e => by cases e⟩
          · intro hl
            refine ⟨hl, by simp, okV, ?_, vals, path, query, (fun _ _ => line (by simp) (by simp)),
              (fun e => by rcases e with e | e; exact absurd e (valueLabel_ne _).1; exact absurd e (valueLabel_ne _).2)⟩
            simp at keys
            simp only [Buf.seg, List.length_drop]
            have : kb.start ≤ kb.mem.length := by rw [h1, h3]; simp; omega
            split <;> omega
  · -- contentLength
    unfold stepContentLength
    cases hcl : clDigits p.contentLength d with
    | mk n rest =>
    dsimp only
    split
    · exact fun hl => ⟨ho, fun _ => ⟨hl.2 rfl, okK, okV, by simpa using keys, vals, path, query, (fun _ _ => line (by simp) (by simp)), (fun e => by rcases e with e | e <;> cases e)⟩, fun _ e => by cases e⟩
    · split
      · exact fun hl => ⟨hl, okK, okV, by simpa using keys, vals, path, query, (fun _ _ => line (by simp) (by simp)), (fun e => by rcases e with e | e <;> cases e)⟩
      split
      · exact fun hl => ⟨hl, okK, okV, by simpa using keys, vals, path, query, (fun _ _ => line (by simp) (by simp)), (fun e => by rcases e with e | e <;> cases e)⟩
      · exact fun _ => ⟨ho, (fun e => by cases e), fun _ e => by cases e⟩
  · -- contentLengthCR
    unfold stepContentLengthCR
    split
    · exact fun hl => ⟨ho, fun _ => ⟨hl.2 rfl, okK, okV, by simpa using keys, vals, path, query, (fun _ _ => line (by simp) (by simp)), (fun e => by rcases e with e | e <;> cases e)⟩, fun _ e => by cases e⟩
    · split
      · exact fun _ => ⟨ho, (fun e => by cases e), fun _ e => by cases e⟩
      · exact fun hl => ⟨hl, okK, okV, by simpa using keys, vals, path, query, (fun _ _ => line (by simp) (by simp)), (fun e => by rcases e with e | e <;> cases e)⟩
  · -- headerValue
    unfold stepHeaderValue
    split
    · split
      · exact fun _ => ⟨ho, (fun e => by cases e), fun _ e => by cases e⟩
      · rename_i vb hvb
        obtain ⟨h1, h2, h3, h4⟩ := Buf.append_mem hvb
        dsimp only
        split
        · exact fun _ => ⟨ho, (fun e => by cases e), fun _ e => by cases e⟩
        · exact fun hl => ⟨ho, fun _ => ⟨hl.2 rfl, okK, by simp only [h1, h3]; simp; omega, by simpa using keys, by simpa [h3] using vals, path, query, (fun _ _ => line (by simp) (by simp)), (fun e => by rcases e with e | e <;> cases e)⟩, fun _ e => by cases e⟩
    · split
      · exact fun _ => ⟨ho, (fun e => by cases e), fun _ e => by cases e⟩
      · rename_i ln rest hc vb hvb
        obtain ⟨h1, h2, h3, h4⟩ := Buf.append_mem hvb
        dsimp only
        split
        · exact fun _ => ⟨ho, (fun e => by cases e), fun _ e => by cases e⟩
        · simp only [Buf.finish]
          split
          · exact fun _ => ⟨ho, (fun e => by cases e), fun _ e => by cases e⟩
          · rename_i last hlast
            obtain ⟨s1, s2, s3, s4, s5⟩ := storeHeader_rest F
              { p with valBuf := { vb with start := vb.mem.length } } p.headerKey
              (if last = CR then (trimLeftSp vb.seg).dropLast else trimLeftSp vb.seg)
            have s6 := storeHeader_pairs F
              { p with valBuf := { vb with start := vb.mem.length } } p.headerKey
              (if last = CR then (trimLeftSp vb.seg).dropLast else trimLeftSp vb.seg)
            obtain ⟨s7, s8⟩ := storeHeader_line F
              { p with valBuf := { vb with start := vb.mem.length } } p.headerKey
              (if last = CR then (trimLeftSp vb.seg).dropLast else trimLeftSp vb.seg)
            intro hl
            simp at keys
            refine ⟨hl, by rw [s1]; exact okK, by rw [s2]; simp, ?_, ?_, by rw [s7]; exact path, by rw [s8]; exact query,
              (fun _ _ => by rw [s7, s8]; exact line (by simp) (by simp)), (fun e => by rcases e with e | e <;> cases e)⟩
            · rw [s6, s1, keysLen_snoc]; simpa using keys
            · rw [s6, s2, valuesLen_snoc]
              simp only
              have h5 := trimLeftSp_length vb.seg
              have h6 : vb.seg.length = vb.mem.length - vb.start := by simp [Buf.seg]
              have h7 : vb.start ≤ vb.mem.length := by rw [h1, h3]; simp; omega
              have h8 : (if last = CR then (trimLeftSp vb.seg).dropLast else trimLeftSp vb.seg).length ≤ (trimLeftSp vb.seg).length := by
                split <;> simp
              omega
  · -- CRLFCR
    unfold stepCRLFCR
    split
    · exact fun hl => ⟨ho, fun _ => ⟨hl.2 rfl, okK, okV, by simpa using keys, vals, path, query, (fun _ _ => line (by simp) (by simp)), (fun e => by rcases e with e | e <;> cases e)⟩, fun _ e => by cases e⟩
    · split
      · exact fun _ => ⟨ho, (fun e => by cases e), fun _ _ => line (by simp) (by simp)⟩
      · exact fun _ => ⟨ho, (fun e => by cases e), fun _ e => by cases e⟩

theorem feed_sum (F : Fold) (p : PState) (hp : Ready p) (hh : p.req.Headers.pairs = [])
    (hpath : p.req.Path.length ≤ p.startLine.max) (hq : p.req.Query.raw = []) (segs : List Bytes) :
    SumOut p (feed F p segs).1 ∧ ∀ x, (feed F p segs).2.1 = .completed x →
      (feed F p segs).1.req.Path.length + (feed F p segs).1.req.Query.raw.length + 1 ≤ p.startLine.max := by
  refine feed_inv F segs.flatten (fun l q _ => SumAt p l q) (fun q r => SumOut p q ∧ ∀ x, r = .completed x →
    q.req.Path.length + q.req.Query.raw.length + 1 ≤ p.startLine.max) ?_ ?_ ?_ segs p [] rfl ?_
  · intro l q a d p' r _ hI hs
    have := step_sum F p (d := d) hI
    rw [hs] at this; exact ⟨⟨this.1, this.2.2⟩, this.2.1⟩
  · intro l q a d l' p' d' _ hI hs
    have h1 := step_sum F p (d := d) hI
    rw [hs] at h1
    obtain ⟨c, hc⟩ := step_goto_suffix F hs
    exact ⟨c, hc, h1⟩
  · intro q a hI; exact ⟨hI.out, fun _ e => by cases e⟩
  · rw [hp.state]
    refine ⟨⟨⟨rfl, rfl, rfl, rfl, ?_, ?_, ?_, ?_, ?_⟩, ?_, fun _ => hp.state⟩, ?_, ?_, ?_, ?_, hpath, ?_, ?_, fun _ => hq⟩
    all_goals simp [hp.startLine.1, hp.keyBuf.1, hp.keyBuf.2, hp.valBuf.1, hp.valBuf.2, hh, hp.number, hq, keysLen, valuesLen]

/-! ### `MaxKeyLength` is not looked at -/

/-- The same state under another `MaxKeyLength`. -/
def rekey (m : Nat) (p : PState) : PState := { p with cfg := { p.cfg with maxKeyLength := m } }

def Step.rekey (m : Nat) : Step → Step
  | .ret p r => .ret (Parser.rekey m p) r
  | .goto l p d => .goto l (Parser.rekey m p) d

theorem step_rekey (F : Fold) (m : Nat) (l : Label) (p : PState) (d : Bytes) :
    step F l (rekey m p) d = (step F l p d).rekey m := by
  cases l <;> simp only [step]
  · unfold stepMethod
    simp only [rekey]
    split
    · split <;> first | rfl | (simp only [*, ite_true, ite_false]; rfl)
    · split
      · rfl
      · unfold finishMethod
        dsimp only
        repeat' split
        all_goals first | rfl | (simp only [*, ite_true, ite_false]; rfl)
  · unfold stepPath
    simp only [rekey]
    split
    · split <;> first | rfl | (simp only [*, ite_true, ite_false]; rfl)
    · split
      · rfl
      · simp only [finishPath]
        split <;> first | rfl | (simp only [*, ite_true, ite_false]; rfl)
  · unfold stepHeaderKey
    simp only [rekey]
    repeat' split
    all_goals first | rfl | (simp only [*, ite_true, ite_false]; rfl)
  · unfold stepContentLength
    simp only [rekey]
    repeat' split
    all_goals first | rfl | (simp only [*, ite_true, ite_false]; rfl)
  · unfold stepContentLengthCR
    repeat' split
    all_goals first | rfl | (simp only [*, ite_true, ite_false]; rfl)
  · unfold stepHeaderValue
    simp only [rekey]
    split
    · split
      · rfl
      · split <;> first | rfl | (simp only [*, ite_true, ite_false]; rfl)
    · split
      · rfl
      · by_cases hlen : Buf.segLen ‹Buf› > p.cfg.maxValueLength
        · simp only [hlen, ite_true]; rfl
        · simp only [hlen, ite_false, Buf.finish]
          split <;> first | rfl | (simp only [*, ite_true, ite_false]; rfl)
  · unfold stepCRLFCR
    repeat' split
    all_goals first | rfl | (simp only [*, ite_true, ite_false]; rfl)

theorem run_rekey (F : Fold) (m : Nat) : ∀ (n : Nat) (l : Label) (p : PState) (d : Bytes),
    run F n l (rekey m p) d = (run F n l p d).map fun x => (rekey m x.1, x.2) := by
  intro n
  induction n with
  | zero => intros; rfl
  | succ n ih =>
    intro l p d
    unfold run
    rw [step_rekey]
    cases step F l p d with
    | ret p r => rfl
    | goto l p d => exact ih l p d

theorem parse_rekey (F : Fold) (m : Nat) (p : PState) (d : Bytes) :
    parse F (rekey m p) d = (rekey m (parse F p d).1, (parse F p d).2) := by
  unfold parse parse?
  have := run_rekey F m (d.length + 1) p.state p d
  rw [show (rekey m p).state = p.state from rfl, this]
  cases run F (d.length + 1) p.state p d <;> rfl

theorem feed_rekey (F : Fold) (m : Nat) : ∀ (segs : List Bytes) (p : PState),
    feed F (rekey m p) segs = (rekey m (feed F p segs).1, (feed F p segs).2) := by
  intro segs
  induction segs with
  | nil => intro p; rfl
  | cons d ds ih =>
    intro p
    unfold feed
    rw [parse_rekey]
    cases parse F p d with
    | mk q r => cases r <;> first | exact ih q | rfl

end Indigo.Parser
