/-
Chunked bodies which are longer than allowed: discarding them fails.
-/
import Verif.Spec.Overlong
import Verif.Proofs.Cut

namespace Indigo.Serve
open Indigo.Spec Indigo.Body
variable {σ ρ : Type}

/-- What is still to come of a chunked body is longer than what is still allowed. -/
def Big (D : σ → Bool → Bytes → Bytes → Bytes → Prop) (s : BC σ) : Prop :=
  s.1.eof = false ∧ s.1.isChunked = true ∧ s.1.maxBodyLen ≤ maxUint ∧ s.1.received ≤ s.1.maxBodyLen ∧
    ∃ rest missing body after, Fading s.2 rest ∧ D s.1.parser s.1.hasTrailer (rest ++ missing) body after ∧
      s.1.maxBodyLen < s.1.received + body.length

/-- One call of `Retrieve`: it goes on, or the body is found to be too long, or the connection is over. -/
theorem big_retrieve (P : ChunkedParser σ) {D} (hP : Decodes P D) (s : BC σ) (h : Big D s) :
    ((retrieve P s).1.2 = none ∧ Big D (retrieve P s).2) ∨
    (retrieve P s).1 = ([], some (.http Status.ErrBodyTooLarge)) ∨
    (∃ e, (retrieve P s).1.2 = some e ∧ Dead (retrieve P s).2.2) := by
  obtain ⟨b, c⟩ := s
  obtain ⟨h1, h2, hmax, hrec, rest, missing, body, after, hf, hD, hbig⟩ := h
  simp only at h1 h2 hmax hrec hD hbig hf
  rw [retrieve_chunked P h2 h1]
  rcases hr : c.read with ⟨⟨d, e⟩, c1⟩
  cases e with
  | some e =>
    obtain ⟨rfl, hd⟩ := fading_err hf hr
    rw [chunkedRead_err P hr]
    exact .inr (.inr ⟨e, rfl, hd⟩)
  | none =>
    obtain ⟨rest', rfl, hf', hp⟩ := fading_ok hf hr
    rcases hpr : P.parse b.parser d b.hasTrailer with ⟨st, chunk, extra, err⟩
    rw [chunkedRead_ok P hr hpr]
    obtain ⟨used, hu1, hu2⟩ := P.suffix b.parser d b.hasTrailer
    rw [hpr] at hu1
    simp only at hu1
    have hcase : (err = none ∧ ∃ body', body = chunk ++ body' ∧ D st b.hasTrailer (extra ++ rest' ++ missing) body' after) ∨
        (err = some .eof ∧ body = chunk) := by
      by_cases hd : d = []
      · have := hP.empty _ _ _ _ _ hD
        rw [show P.parse b.parser [] b.hasTrailer = (st, chunk, extra, err) by rw [← hpr, hd]] at this
        simp only at this
        obtain ⟨g1, g2, g3⟩ := this
        rw [hd] at hu1
        have hex : extra = [] := (List.append_eq_nil_iff.1 hu1.symm).2
        exact .inl ⟨g1, body, by simp [g2], by simpa [hex, hd] using g3⟩
      · rw [List.append_assoc] at hD
        have := hP.step _ _ _ _ _ _ hD hd
        rw [hpr] at this
        rcases this with ⟨g1, body', g2, g3⟩ | ⟨g1, g2, -⟩
        · exact .inl ⟨g1, body', g2, by simpa using g3⟩
        · exact .inr ⟨g1, g2⟩
    have hfat : isFatal err = false := by rcases hcase with ⟨rfl, _⟩ | ⟨rfl, _⟩ <;> rfl
    by_cases hov : (adduint b.received chunk.length).2 = true ∨ (adduint b.received chunk.length).1 > b.maxBodyLen
    · right; left
      simp only [chunkedDone, hfat, Bool.false_eq_true, if_false]
      rw [if_pos hov]
    · have hle : b.received + chunk.length ≤ b.maxBodyLen := by
        simp only [adduint, decide_eq_true_eq] at hov
        have h3 : ¬ maxUint - b.received < chunk.length := fun h => hov (.inl h)
        have h4 : ¬ (b.received + chunk.length) % (maxUint + 1) > b.maxBodyLen := fun h => hov (.inr h)
        rw [Nat.mod_eq_of_lt (by omega)] at h4
        omega
      have hadd : adduint b.received chunk.length = (b.received + chunk.length, false) := adduint_ok (by omega)
      rcases hcase with ⟨rfl, body', rfl, hD'⟩ | ⟨-, rfl⟩
      · left
        have hdone : chunkedDone { b with parser := st } c1 chunk extra none =
            ((chunk, none), ({ b with parser := st, received := b.received + chunk.length }, c1.unread extra)) := by
          simp only [chunkedDone, isFatal, hadd]
          rw [if_neg (by simp), if_neg (by simp; omega)]
        rw [hdone]
        simp only [checkEOF_none, List.length_append] at hbig ⊢
        exact ⟨trivial, h1, h2, hmax, by simp only; omega, extra ++ rest', missing, body', after,
          fading_unread hf' hp extra, hD', by simp only; omega⟩
      · omega

/-- Discarding such a body fails, or there is nothing more to be read. -/
theorem big_discard (P : ChunkedParser σ) {D} (hP : Decodes P D) (s : BC σ) (h : Big D s) :
    (∃ e s', discard P (fuel s) s = (some e, s')) ∨ ∃ s', discard P (fuel s) s = (none, s') ∧ Dead s'.2 := by
  obtain ⟨ds, e, s', hp⟩ := pieces_total P s
  rw [discard_pieces P hp (fuel s) (by unfold fuel; omega)]
  by_cases he : e = .eof
  · subst he
    refine .inr ⟨s', by simp, ?_⟩
    generalize hge : GoErr.eof = e at hp
    induction hp with
    | @last s d e s' hr =>
      subst hge
      rcases big_retrieve P hP s h with ⟨k, -⟩ | k | ⟨e, k1, k2⟩
      · rw [hr] at k; cases k
      · rw [hr] at k; cases k
      · rw [hr] at k2; exact k2
    | @more s d s1 ds e s' hr _ ih =>
      subst hge
      rcases big_retrieve P hP s h with ⟨-, k⟩ | k | ⟨e, k1, k2⟩
      · rw [hr] at k; exact ih k rfl
      · rw [hr] at k; cases k
      · rw [hr] at k1; cases k1
  · exact .inl ⟨e, s', by rw [if_neg he]⟩

/-- A request with such a body is the last one, if the handlers leave bodies alone. -/
theorem serve_overlong (E : Setup σ ρ) (dec : DecodesChunked E.P) (leaves : LeavesBody E) {L : Limits} {T limit : Nat} (uint : limit ≤ maxUint)
    {remote : Bytes} (post : List (Bytes × Option GoErr)) (over : Over post) (h : Head) (path given : Bytes) (good : GoodHead L h path)
    (long : OverlongBody E.F T limit h given) (env : Environment) (c : Conn σ ρ) (cl : Client)
    (idle : Idle E L T limit remote env c) (hc : c.client = followedBy cl post) (q : Quiet cl) (stream : cl.stream = h.render ++ given) :
    ∃ vs frames why, Came E c vs frames why ∧
      LastRequest E T remote post h path given env c.router c.ser c.upgradePreResp c.client.wscript vs frames why := by
  obtain ⟨D, hD, hdec⟩ := dec
  obtain ⟨hch, chunks, coded, missing, after, hcod, heq, -, hlarge⟩ := long
  refine serve_final E post h path given good env c cl (Big D) ?_ (fun b c o hb => hb)
    (big_discard E.P hD) idle hc q stream
  rintro seen world o w ann hb hans hh
  obtain ⟨cl', hcl, hs, hq⟩ := ann.rest
  have hw := leaves c.router seen { body := world.1, client := world.2, hijacked := false } rfl
  rw [show (E.router.onRequest c.router seen).1.run E.P E.maxAlloc { body := world.1, client := world.2, hijacked := false } = (o, w)
    from hans] at hw
  simp only at hw
  subst hw
  simp only [hb, hcl]
  have hchunk : seen.Encoding.Chunked = true := by
    rw [ann.carries.chunked, ann.carries.transfer]; exact hch
  obtain ⟨i1, i2, i3, i4, i5⟩ := initFor_chunked c.body seen hchunk
  have hf := fading_followedBy hq over
  rw [hs] at hf
  refine ⟨(initFor_fresh c.body seen).1, i1, by rw [initFor_max, idle.bodyMax]; exact uint, by rw [i2]; omega,
    given, missing, chunks.flatten, after, hf, ?_, by rw [i2, initFor_max, idle.bodyMax]; omega⟩
  rw [i5, idle.decoder, heq]
  exact hdec _ chunks coded after hcod

/-- A request is the last one, if what the handler leaves of its body cannot be read without an error. -/
theorem serve_unreadable (E : Setup σ ρ) {L : Limits} {T limit : Nat}
    {remote : Bytes} (post : List (Bytes × Option GoErr)) (h : Head) (path given : Bytes) (good : GoodHead L h path)
    (fails : ∀ env st seen world answer left, Announced E T remote post env h path given seen world →
      world.1.maxBodyLen = limit → Answers E st seen world (answer, left) → left.hijacked = false →
      ∃ ds e s', Pieces E.P (left.body, left.client) ds e s' ∧ e ≠ .eof) (env : Environment) (c : Conn σ ρ) (cl : Client)
    (idle : Idle E L T limit remote env c) (hc : c.client = followedBy cl post) (q : Quiet cl) (stream : cl.stream = h.render ++ given) :
    ∃ vs frames why, Came E c vs frames why ∧
      LastRequest E T remote post h path given env c.router c.ser c.upgradePreResp c.client.wscript vs frames why := by
  refine serve_final E post h path given good env c cl (fun s => ∃ ds e s', Pieces E.P s ds e s' ∧ e ≠ .eof) ?_ ?_ ?_ idle hc q stream
  · intro seen world o w ann hb hans hh
    exact fails _ _ _ _ _ _ ann (by rw [hb, initFor_max, idle.bodyMax]) hans hh
  · rintro b c o ⟨ds, e, s', h1, h2⟩
    exact ⟨ds, e, _, pieces_withOut E.P o h1, h2⟩
  · rintro s ⟨ds, e, s', h1, h2⟩
    exact .inl ⟨e, s', by rw [discard_pieces E.P h1 (fuel s) (by unfold fuel; omega), if_neg h2]⟩

end Indigo.Serve
