/-
Requests read by the strict reader of Spec/Wire.lean are well-formed requests.
-/
import Verif.Spec.Wire
import Verif.Proofs.Static
import Verif.Proofs.Tokens
import Verif.Proofs.Chunked
import Verif.Proofs.ParserHead4

namespace Indigo.Spec
variable {σ ρ : Type}

theorem cutCRLF_some {s a b : Bytes} (h : cutCRLF s = some (a, b)) : s = a ++ 13 :: 10 :: b := by
  induction s generalizing a b with
  | nil => cases h
  | cons x xs ih =>
    rw [cutCRLF] at h
    split at h
    · rename_i hc
      cases h
      obtain ⟨rfl, hx⟩ := hc
      cases xs with
      | nil => cases hx
      | cons y ys => cases hx; rfl
    · cases hr : cutCRLF xs with
      | none => rw [hr] at h; cases h
      | some r =>
        obtain ⟨r1, r2⟩ := r
        rw [hr] at h
        cases h
        rw [ih hr]
        rfl

theorem mem_takeWhile (p : Byte → Bool) {s : Bytes} {c : Byte} (h : c ∈ s.takeWhile p) : p c = true := by
  induction s with
  | nil => cases h
  | cons x s ih =>
    rw [List.takeWhile_cons] at h
    split at h
    · rcases List.mem_cons.1 h with rfl | h
      · assumption
      · exact ih h
    · cases h

theorem dropWhile_split (p : Byte → Bool) (s : Bytes) : ∃ a, s = a ++ s.dropWhile p ∧ ∀ c ∈ a, p c = true :=
  ⟨s.takeWhile p, (List.takeWhile_append_dropWhile ..).symm, fun _ hc => mem_takeWhile _ hc⟩

theorem stripOWS_split (s : Bytes) : ∃ a b, s = a ++ stripOWS s ++ b ∧ (∀ c ∈ a, isBlank c = true) ∧ ∀ c ∈ b, isBlank c = true := by
  obtain ⟨a, h1, h2⟩ := dropWhile_split isBlank s
  obtain ⟨b, h3, h4⟩ := dropWhile_split isBlank (s.dropWhile isBlank).reverse
  refine ⟨a, b.reverse, ?_, h2, fun c hc => h4 c (by simpa using hc)⟩
  have : s.dropWhile isBlank = stripOWS s ++ b.reverse := by
    have := congrArg List.reverse h3
    rw [List.reverse_reverse, List.reverse_append] at this
    exact this
  rw [List.append_assoc, ← this]
  exact h1

/-- The field as one of a head. -/
def toField (f : Bytes × Bytes) : Field := ⟨f.1, (f.2.takeWhile (· = 32)).length, f.2.dropWhile (· = 32), true⟩

theorem takeWhile_blanks (v : Bytes) : List.replicate (v.takeWhile (· = 32)).length 32 ++ v.dropWhile (· = 32) = v := by
  have : v.takeWhile (· = 32) = List.replicate (v.takeWhile (· = 32)).length 32 := by
    refine List.eq_replicate_iff.2 ⟨rfl, fun c hc => ?_⟩
    simpa using mem_takeWhile _ hc
  rw [← this]
  exact List.takeWhile_append_dropWhile ..

theorem toField_render (f : Bytes × Bytes) : (toField f).render = f.1 ++ 58 :: (f.2 ++ [13, 10]) := by
  unfold Field.render toField eol
  simp only [if_true]
  rw [← List.append_assoc, takeWhile_blanks]

theorem readWireFields_some (n : Nat) : ∀ {s fs rest}, readWireFields n s = some (fs, rest) →
    s = (fs.map toField).flatMap Field.render ++ 13 :: 10 :: rest ∧ ∀ f ∈ fs, f.1 ≠ [] ∧ f.1.all isTchar = true ∧ f.2.all isFieldChar = true := by
  induction n with
  | zero => intro s fs rest h; cases h
  | succ n ih =>
    intro s fs rest h
    rw [readWireFields] at h
    cases hc : cutCRLF s with
    | none => rw [hc] at h; cases h
    | some r =>
      obtain ⟨line, s'⟩ := r
      rw [hc] at h
      have hs := cutCRLF_some hc
      simp only at h
      split at h
      · rename_i hl
        cases h
        rw [hs, hl]
        exact ⟨rfl, by simp⟩
      · cases hk : cut 58 line with
        | none => rw [hk] at h; cases h
        | some kv =>
          obtain ⟨k, v⟩ := kv
          rw [hk] at h
          simp only at h
          split at h
          · rename_i hok
            cases hr : readWireFields n s' with
            | none => rw [hr] at h; cases h
            | some r =>
              obtain ⟨fs', rest'⟩ := r
              rw [hr] at h
              cases h
              obtain ⟨h1, h2⟩ := ih hr
              refine ⟨?_, ?_⟩
              · rw [hs, (cut_some hk).1, h1, List.map_cons, List.flatMap_cons, toField_render]
                simp
              · intro f hf
                rcases List.mem_cons.1 hf with rfl | hf
                · exact hok
                · exact h2 f hf
          · cases h

theorem readChunks_some (n : Nat) : ∀ {s body rest}, readChunks n s = some (body, rest) →
    ∃ chunks coded, ChunkedCoding chunks coded ∧ body = chunks.flatten ∧ s = coded ++ rest := by
  induction n with
  | zero => intro s body rest h; cases h
  | succ n ih =>
    intro s body rest h
    rw [readChunks] at h
    cases hc : cutCRLF s with
    | none => rw [hc] at h; cases h
    | some r =>
      obtain ⟨ds, s'⟩ := r
      rw [hc] at h
      have hs := cutCRLF_some hc
      simp only at h
      split at h
      · cases h
      · rename_i hd
        split at h
        · rename_i hl
          cases h
          refine ⟨[], _, .last hd, rfl, ?_⟩
          rw [hs, cutCRLF_some hl]
          simp
        · cases h
      · rename_i k hd
        split at h
        · rename_i hl
          cases hr : readChunks n (s'.drop (k + 3)) with
          | none => rw [hr] at h; cases h
          | some r =>
            obtain ⟨body', rest'⟩ := r
            rw [hr] at h
            cases h
            obtain ⟨chunks, coded, h1, h2, h3⟩ := ih hr
            have hlen : k + 3 ≤ s'.length := by
              have := congrArg List.length hl
              simp at this
              omega
            refine ⟨s'.take (k + 1) :: chunks, _, .chunk (ds := ds) ?_ ?_ h1, by simp [h2], ?_⟩
            · rw [hd, List.length_take]; congr 1; omega
            · intro he
              have := congrArg List.length he
              rw [List.length_take, List.length_nil] at this
              omega
            · rw [hs]
              have e : s' = s'.take (k + 1) ++ ((s'.drop (k + 1)).take 2 ++ s'.drop (k + 3)) := by
                have : s'.drop (k + 3) = (s'.drop (k + 1)).drop 2 := by rw [List.drop_drop]
                rw [this, List.take_append_drop, List.take_append_drop]
              conv => lhs; rw [e, hl, h3]
              simp
        · cases h

/-- The head of a request of the wire. -/
def WireRequest.head (w : WireRequest) (m : Method) : Head :=
  { method := m, target := w.path, query := w.query, version := w.version, crlf := true, fields := w.fields.map toField, lastCrlf := true }

private theorem query_eq (t : Bytes) : t = t.takeWhile (· ≠ 63) ++ queryPart ((t.dropWhile (· ≠ 63)).head?.map (fun _ => (t.dropWhile (· ≠ 63)).tail)) := by
  conv => lhs; rw [← List.takeWhile_append_dropWhile (p := fun c : Byte => decide (c ≠ 63)) (l := t)]
  congr 1
  cases hd : t.dropWhile (fun c : Byte => decide (c ≠ 63)) with
  | nil => rfl
  | cons c cs =>
    have := List.head?_dropWhile_not (fun c : Byte => decide (c ≠ 63)) t
    rw [hd] at this
    simp at this
    simp [queryPart, this]

theorem WireRequest.target_eq (w : WireRequest) : w.target = w.path ++ queryPart w.query := query_eq w.target

theorem filter_toField (n : Bytes) (fs : List (Bytes × Bytes)) :
    (fs.map toField).filter (Field.named n) = (fs.filter (fun f => lower f.1 == n)).map toField := by
  rw [List.filter_map]; rfl

private theorem tchar : ∀ c : Byte, isTchar c = true → c ≠ 58 ∧ c ≠ 13 ∧ c ≠ 10 := byte_forall (by decide +kernel)
private theorem fieldChar : ∀ c : Byte, isFieldChar c = true → c ≠ 10 := byte_forall (by decide +kernel)
private theorem targetChar : ∀ c : Byte, isTargetChar c = true → c ≠ 10 := byte_forall (by decide +kernel)
private theorem blank : ∀ c : Byte, isBlank c = true → c ≠ 9 → c = 32 := byte_forall (by decide +kernel)
private theorem blank_notDigit : ∀ c : Byte, isBlank c = true → isDigit c = false := byte_forall (by decide +kernel)
private theorem blank_ows : ∀ c : Byte, isBlank c = true → c = 32 ∨ c = 9 := byte_forall (by decide +kernel)

private theorem dropWhile_mem {p : Byte → Bool} {s : Bytes} {c : Byte} (h : c ∈ s.dropWhile p) : c ∈ s :=
  (List.dropWhile_sublist p).mem h

private theorem dropWhile_filter (v : Bytes) : (v.dropWhile (· = 32)).filter isDigit = v.filter isDigit := by
  induction v with
  | nil => rfl
  | cons c v ih =>
    rw [List.dropWhile_cons]
    split
    · rename_i h
      rw [ih, List.filter_cons]
      have : c = 32 := by simpa using h
      rw [this]
      rfl
    · rfl

private theorem filter_nil {s : Bytes} (h : ∀ c ∈ s, isBlank c = true) : s.filter isDigit = [] := by
  rw [List.filter_eq_nil_iff]
  intro c hc
  rw [blank_notDigit c (h c hc)]
  simp

/-- A request the strict reader has found is a well-formed request (`Sending`), which is followed by what the reader has left. -/
theorem wire_sending {F : Fold} {L : Limits} {maxTokens maxBody : Nat} {s : Bytes} {w : WireRequest} {rest : Bytes} (h : readWire s = some (w, rest)) {m : Method}
    {path : Bytes} (fits : w.Fits L maxTokens maxBody m path) :
    ∃ t : Sending, t.head = w.head m ∧ t.path = path ∧ t.body = w.body ∧ Sendable F L maxTokens maxBody t ∧ s = t.bytes ++ rest := by
  rw [readWire] at h
  cases hc : cutCRLF s with
  | none => rw [hc] at h; cases h
  | some r =>
    obtain ⟨line, s1⟩ := r
    rw [hc] at h
    simp only at h
    cases hm : cut 32 line with
    | none => rw [hm] at h; cases h
    | some r =>
      obtain ⟨meth, line'⟩ := r
      rw [hm] at h
      simp only at h
      cases ht : cut 32 line' with
      | none => rw [ht] at h; cases h
      | some r =>
        obtain ⟨target, version⟩ := r
        rw [ht] at h
        simp only at h
        split at h
        · rename_i hok
          cases hf : readWireFields (s.length + 1) s1 with
          | none => rw [hf] at h; cases h
          | some r =>
            obtain ⟨fields, s2⟩ := r
            rw [hf] at h
            simp only at h
            cases hb : readBody fields s2 with
            | none => rw [hb] at h; cases h
            | some r =>
              obtain ⟨body, rest'⟩ := r
              rw [hb] at h
              simp only [Option.map_some, Option.some.injEq, Prod.mk.injEq] at h
              obtain ⟨rfl, rfl⟩ := h
              obtain ⟨hf1, hf2⟩ := readWireFields_some _ hf
              obtain ⟨e1, -⟩ := cut_some hm
              obtain ⟨e2, -⟩ := cut_some ht
              have e0 := cutCRLF_some hc
              obtain ⟨-, -, ok3, ok4, ok5⟩ := hok
              have tgt := WireRequest.target_eq { method := meth, target, version, fields, body }
              have hrender : s = (WireRequest.head { method := meth, target, version, fields, body } m).render ++ s2 := by
                have hmeth : meth = methodName m := fits.method.2
                have htgt : target = _ := tgt
                rw [e0, e1, e2, hf1]
                conv => lhs; rw [htgt]
                simp [Head.render, Head.line, WireRequest.head, eol, hmeth]
              have tclean : ∀ c ∈ target, c ≠ 10 := fun c hc => targetChar c (List.all_eq_true.1 ok4 c hc)
              have psub : ∀ c ∈ (WireRequest.path { method := meth, target, version, fields, body }), c ≠ 10 ∧ c ≠ 63 := by
                intro c hc
                exact ⟨tclean c ((List.takeWhile_sublist _).mem hc), by simpa using mem_takeWhile _ hc⟩
              have names : ∀ f ∈ fields, ∀ c ∈ f.1, c ≠ 58 ∧ c ≠ 13 ∧ c ≠ 10 := fun f hf c hc => tchar c (List.all_eq_true.1 (hf2 f hf).2.1 c hc)
              have lengths : ∀ f ∈ fields, lower f.1 = b!"content-length" → ∀ n, readDecimal (stripOWS f.2) = some n →
                  (∀ c ∈ f.2.dropWhile (· = 32), c = 32 ∨ isDigit c = true) ∧ (f.2.dropWhile (· = 32)).filter isDigit = stripOWS f.2 ∧ decimal (stripOWS f.2) = n := by
                intro f hf hn n hd
                obtain ⟨a, b, k1, k2, k3⟩ := stripOWS_split f.2
                unfold readDecimal at hd
                split at hd
                · rename_i hdig
                  have hdig' : ∀ c ∈ stripOWS f.2, isDigit c = true := fun c hc => List.all_eq_true.1 hdig.2 c hc
                  refine ⟨?_, ?_, by simpa using hd⟩
                  · intro c hc
                    have hmem := dropWhile_mem hc
                    have htab : c ≠ 9 := fun h9 => fits.tabs f hf hn (by rw [← h9]; exact hmem)
                    rw [k1] at hmem
                    rcases List.mem_append.1 hmem with hmem | hmem
                    · rcases List.mem_append.1 hmem with hmem | hmem
                      · exact .inl (blank c (k2 c hmem) htab)
                      · exact .inr (hdig' c hmem)
                    · exact .inl (blank c (k3 c hmem) htab)
                  · rw [dropWhile_filter]
                    conv => lhs; rw [k1]
                    rw [List.filter_append, List.filter_append, filter_nil k2, filter_nil k3, List.nil_append, List.append_nil, List.filter_eq_self]
                    exact hdig'
                · cases hd
              have framing : ∃ coded, s2 = coded ++ rest' ∧ (∀ f ∈ fields, lower f.1 = b!"content-length" → ∃ n, readDecimal (stripOWS f.2) = some n) ∧
                  Framed F maxTokens ⟨WireRequest.head { method := meth, target, version, fields, body } m, path, body, coded⟩ := by
                have hte : (WireRequest.head { method := meth, target, version, fields, body } m).last b!"transfer-encoding" =
                    ((fields.filter (fun f => lower f.1 == b!"transfer-encoding")).getLast?).map (fun f => f.2.dropWhile (· = 32)) := by
                  unfold Head.last WireRequest.head
                  rw [filter_toField, List.getLast?_map, Option.map_map]
                  rfl
                have hcl : (WireRequest.head { method := meth, target, version, fields, body } m).lengthDigits =
                    (fields.filter (fun f => lower f.1 == b!"content-length")).flatMap (fun f => (f.2.dropWhile (· = 32)).filter isDigit) := by
                  unfold Head.lengthDigits WireRequest.head
                  have : Field.isLength = Field.named b!"content-length" := rfl
                  rw [this, filter_toField, List.flatMap_map]
                  rfl
                have nocl : ∀ {v}, valuesOf v fields = [] → fields.filter (fun f => lower f.1 == v) = [] := by
                  intro v hv; simpa [valuesOf] using hv
                have one : ∀ {v x}, valuesOf v fields = [x] → ∃ f, f ∈ fields ∧ lower f.1 = v ∧ stripOWS f.2 = x ∧ fields.filter (fun f => lower f.1 == v) = [f] := by
                  intro v x hv
                  unfold valuesOf at hv
                  cases hl : fields.filter (fun f => lower f.1 == v) with
                  | nil => rw [hl] at hv; cases hv
                  | cons f fs =>
                    cases fs with
                    | cons => rw [hl] at hv; simp at hv
                    | nil =>
                      rw [hl] at hv
                      have := List.mem_filter.1 (hl ▸ List.mem_singleton.2 rfl : f ∈ fields.filter (fun f => lower f.1 == v))
                      exact ⟨f, this.1, by simpa using this.2, by simpa using hv, rfl⟩
                have none_named : ∀ {v}, fields.filter (fun f => lower f.1 == v) = [] → ∀ f ∈ fields, lower f.1 ≠ v := by
                  intro v hv f hf he
                  have : f ∈ fields.filter (fun f => lower f.1 == v) := List.mem_filter.2 ⟨hf, by simp [he]⟩
                  rw [hv] at this
                  cases this
                have unchunked : fields.filter (fun f => lower f.1 == b!"transfer-encoding") = [] →
                    (WireRequest.head { method := meth, target, version, fields, body } m).isChunked F maxTokens = false := by
                  intro hv
                  unfold Head.isChunked
                  rw [hte, hv]
                  rfl
                unfold readBody at hb
                split at hb
                · rename_i hv1 hv2
                  cases hb
                  have h1 := nocl hv1
                  have h2 := nocl hv2
                  refine ⟨[], rfl, fun f hf he => absurd he (none_named h2 f hf), ?_⟩
                  refine .sized (unchunked h1) rfl ?_
                  show decimal _ % 2 ^ 64 = 0
                  rw [hcl, h2]
                  rfl
                · rename_i v hv1 hv2
                  have h1 := nocl hv1
                  obtain ⟨f, hfm, hfn, hfv, hfl⟩ := one hv2
                  cases hd : readDecimal v with
                  | none => rw [hd] at hb; cases hb
                  | some n =>
                    rw [hd] at hb
                    simp only at hb
                    split at hb
                    · rename_i hn
                      cases hb
                      refine ⟨s2.take n, (List.take_append_drop ..).symm, ?_, ?_⟩
                      · intro g hg he
                        have : g ∈ fields.filter (fun f => lower f.1 == b!"content-length") := List.mem_filter.2 ⟨hg, by simp [he]⟩
                        rw [hfl, List.mem_singleton] at this
                        exact ⟨n, by rw [this, hfv, hd]⟩
                      · obtain ⟨-, d1, d2⟩ := lengths f hfm hfn n (by rw [hfv, hd])
                        refine .sized (unchunked h1) rfl ?_
                        have h64 : (s2.take n).length < 2 ^ 64 := fits.body.2
                        show decimal _ % 2 ^ 64 = (s2.take n).length
                        rw [hcl, hfl, List.flatMap_singleton, d1, d2]
                        rw [List.length_take] at h64 ⊢
                        omega
                    · cases hb
                · rename_i v hv1 hv2
                  obtain ⟨f, hfm, hfn, hfv, hfl⟩ := one hv1
                  have h2 := nocl hv2
                  split at hb
                  · rename_i hch
                    obtain ⟨chunks, coded, c1, c2, c3⟩ := readChunks_some _ hb
                    refine ⟨coded, c3, fun f hf he => absurd he (none_named h2 f hf), .chunked chunks ?_ c1 c2⟩
                    show Head.isChunked F maxTokens _ = true
                    unfold Head.isChunked
                    rw [hte, hfl]
                    obtain ⟨a, b, k1, k2, k3⟩ := stripOWS_split f.2
                    rw [hfv] at k1
                    have hvc : ∀ c ∈ v, 97 ≤ lowerByte c ∧ lowerByte c ≤ 122 := by
                      intro c hc
                      have : lowerByte c ∈ b!"chunked" := by rw [← hch]; exact List.mem_map_of_mem (f := lowerByte) hc
                      revert this
                      generalize lowerByte c = x
                      revert x
                      exact byte_forall (by decide +kernel)
                    have htok : IsToken v := by
                      intro c hc
                      have := hvc c hc
                      clear hc
                      revert this
                      revert c
                      exact byte_forall (by decide +kernel)
                    have hpad : Padded (f.2.dropWhile (· = 32)) v := by
                      refine ⟨a.dropWhile (· = 32), b, fun c hc => blank_ows c (k2 c (dropWhile_mem hc)), fun c hc => blank_ows c (k3 c hc), ?_⟩
                      rw [k1, List.append_assoc, List.dropWhile_append]
                      split
                      · rename_i he
                        have he' : a.dropWhile (fun c => decide (c = 32)) = [] := List.isEmpty_iff.1 he
                        rw [he', List.nil_append]
                        cases v with
                        | nil => cases hch
                        | cons c v =>
                          rw [List.cons_append, List.dropWhile_cons, if_neg]
                          have := (htok c (by simp)).2
                          intro h32
                          have : c = 32 := by simpa using h32
                          subst this
                          exact absurd (htok 32 (by simp)).2 (by decide)
                      · rw [List.append_assoc]
                    have hel := Parser.listElems_text (.one hpad) (by intro t ht; rw [List.mem_singleton.1 ht]; exact htok)
                    have hvne : v ≠ [] := by intro h0; rw [h0] at hch; cases hch
                    have hfold : F.eq v b!"chunked" = true := by
                      unfold Fold.eq
                      rw [beq_iff_eq, ← hch, lower, List.map_map]
                      exact List.map_congr_left (fun c _ => (F.case_insensitive c).symm)
                    simp only [List.getLast?_singleton, Option.map_some, Option.getD_some, encTokens, hel, List.filter_cons, List.filter_nil]
                    have : decide (v ≠ []) = true := by simpa using hvne
                    rw [if_pos this, if_pos (show [v].length ≤ maxTokens from fits.tokens)]
                    simpa using hfold
                  · cases hb
                · cases hb
              obtain ⟨coded, c1, c2, c3⟩ := framing
              have fnames : ∀ f ∈ (WireRequest.head { method := meth, target, version, fields, body } m).fields, ∃ g ∈ fields, f = toField g := by
                intro f hf
                obtain ⟨g, hg, rfl⟩ := List.mem_map.1 hf
                exact ⟨g, hg, rfl⟩
              have raw : ∀ g : Bytes × Bytes, (toField g).rawLength = g.2.length + 1 := by
                intro g
                have := congrArg List.length (takeWhile_blanks g.2)
                rw [List.length_append, List.length_replicate] at this
                show (g.2.takeWhile (· = 32)).length + (g.2.dropWhile (· = 32)).length + 1 = _
                omega
              have others : (fields.map toField).filter (fun f => !f.isLength) =
                  (WireRequest.others { method := meth, target, version, fields, body }).map toField := by
                rw [List.filter_map]; rfl
              have version32 : 32 ∉ version ∧ 10 ∉ version ∧ ∃ p, IsVersion version p := by
                rcases ok5 with rfl | rfl
                · exact ⟨by decide, by decide, _, 46, .inl ⟨rfl, rfl⟩⟩
                · exact ⟨by decide, by decide, _, 46, .inr (.inl ⟨rfl, rfl⟩)⟩
              refine ⟨⟨WireRequest.head { method := meth, target, version, fields, body } m, path, body, coded⟩, rfl, rfl, rfl, ?_, by
                rw [Sending.bytes, List.append_assoc, ← c1]; exact hrender⟩
              constructor
              · refine ⟨fits.method.1, ⟨fits.path.1, fun h => (psub 10 h).1 rfl, fun h => (psub 63 h).2 rfl⟩, ?_, ⟨version32.2.2, version32.1, version32.2.1⟩, ?_⟩
                · intro q hq h10
                  have : (10 : Byte) ∈ target := by
                    have htgt : target = _ := tgt
                    rw [htgt]
                    have hq' : WireRequest.query { method := meth, target, version, fields, body } = some q := hq
                    rw [hq']
                    simp [queryPart, h10]
                  exact tclean 10 this rfl
                · intro f hf
                  obtain ⟨g, hg, rfl⟩ := fnames f hf
                  refine ⟨fun h => (names g hg 58 h).1 rfl, ⟨?_, ?_⟩, ?_, ?_, ?_, ?_⟩
                  · intro h; exact (names g hg 13 (List.mem_of_mem_head? h)).2.1 rfl
                  · intro h; exact (names g hg 10 (List.mem_of_mem_head? h)).2.2 rfl
                  · intro h; exact fieldChar 10 (List.all_eq_true.1 (hf2 g hg).2.2 10 (dropWhile_mem h)) rfl
                  · intro h
                    have := List.head?_dropWhile_not (fun c : Byte => decide (c = 32)) g.2
                    have h' : (g.2.dropWhile (fun c => decide (c = 32))).head? = some 32 := h
                    rw [h'] at this
                    simp at this
                  · intro h; cases h
                  · intro h
                    have hn : lower g.1 = b!"content-length" := by simpa [Field.isLength, Field.named, toField] using h
                    obtain ⟨n, hn'⟩ := c2 g hg hn
                    exact (lengths g hg hn n hn').1
              · intro f hf
                obtain ⟨g, hg, rfl⟩ := fnames f hf
                exact ⟨fun h => (names g hg 13 h).2.1 rfl, fun h => (names g hg 10 h).2.2 rfl⟩
              · intro f hf _ hcr
                obtain ⟨g, hg, rfl⟩ := fnames f hf
                cases hcr
              · constructor
                · have hl := fits.line
                  have htgt : target.length = _ := congrArg List.length tgt
                  have hmeth : meth = methodName m := fits.method.2
                  show (methodName m).length + (Head.line (WireRequest.head { method := meth, target, version, fields, body } m)).length + 1 ≤ L.line
                  rw [Head.line]
                  simp only [WireRequest.head, List.length_append, List.length_cons] at htgt hl ⊢
                  rw [hmeth] at hl htgt ⊢
                  omega
                · show ((fields.map toField).map (fun f => f.name.length)).sum ≤ L.names
                  rw [List.map_map]
                  exact fits.names
                · show (((fields.map toField).filter (fun f => !f.isLength)).map Field.rawLength).sum ≤ L.values
                  rw [others, List.map_map, show Field.rawLength ∘ toField = fun f : Bytes × Bytes => f.2.length + 1 from funext raw]
                  exact fits.values
                · show (fields.map toField).length ≤ L.number
                  rw [List.length_map]
                  exact fits.number
                · intro f hf hl
                  have : f ∈ (fields.map toField).filter (fun f => !f.isLength) := List.mem_filter.2 ⟨hf, by simp [hl]⟩
                  rw [others] at this
                  obtain ⟨g, hg, rfl⟩ := List.mem_map.1 this
                  rw [raw]
                  exact fits.value g hg
              · exact fits.path.2.unescapes
              · exact c3
              · exact fits.body.1
        · cases h

end Indigo.Spec
