/-
Property C94: files which are opened for responses are closed.
-/
import Verif.Spec.Descriptors
import Verif.Props.Framing

namespace Indigo.Props
open Indigo.Spec Indigo.Serializer Indigo.Descriptors

/-- All open files have numbers of files opened before; each occurs once. -/
def Numbered (s : Files) : Prop := s.still.Nodup ∧ ∀ i ∈ s.still, i < s.count

theorem Numbered.opened {s : Files} (h : Numbered s) : Numbered s.opened := by
  refine ⟨?_, ?_⟩
  · show (s.still ++ [s.count]).Nodup
    rw [List.nodup_append]
    refine ⟨h.1, by simp, ?_⟩
    intro a ha b hb
    simp only [List.mem_singleton] at hb
    have := h.2 a ha
    omega
  · intro i hi
    simp only [Files.opened, List.mem_append, List.mem_singleton] at hi ⊢
    rcases hi with hi | rfl
    · have := h.2 i hi; omega
    · omega

/-- Where a response which is being made is: `n` files have been open before, `k` have been opened for it. -/
structure Making (n k : Nat) (isFile : Bool) (x : Resp × Files) : Prop where
  numbered : Numbered x.2
  total : x.2.still.length = n + k
  fd : isFile = x.1.fd.isSome
  live : ∀ i, x.1.fd = some i → i ∈ x.2.still
  reader : ∀ i, x.1.fd = some i → ∃ r, x.1.fields.Attachment.content = some r

theorem error_attachment (text : GoErr → Bytes) (f : Fields) (e : Option GoErr) (cs : List Status.Code) :
    (f.error text e cs).Attachment = f.Attachment := by
  unfold Fields.error
  split <;> rfl

theorem call_attachment {F : Fold} {text : GoErr → Bytes} {f g : Fields} {c : Call} (h : c.run F text f = some g)
    (hf : ∀ a, c ≠ .file a) (ha : ∀ r n, c ≠ .attachment r n) : g.Attachment = f.Attachment := by
  cases c with
  | file a => exact absurd rfl (hf a)
  | attachment r n => exact absurd rfl (ha r n)
  | header k vs =>
    simp only [Call.run, Fields.header] at h
    split at h
    · cases vs with
      | nil => simp at h
      | cons v vs => simp at h; subst h; rfl
    · split at h
      · cases vs with
        | nil => simp at h
        | cons v vs => simp at h; subst h; rfl
      · simp at h; subst h; rfl
  | error e cs => simp only [Call.run, Option.some.injEq] at h; subst h; exact error_attachment ..
  | json out err =>
    simp only [Call.run, Option.some.injEq] at h
    subst h
    unfold Fields.json
    cases err with
    | none => rfl
    | some e => exact error_attachment ..
  | _ => simp only [Call.run, Option.some.injEq] at h; subst h; rfl

theorem making_step {F : Fold} {text : GoErr → Bytes} {n k : Nat} {b : Bool} {x y : Resp × Files} (d : Doing) (h : Making n k b x)
    (hr : d.run F text x = some y) : Making n (k + d.opens.toNat) (d.decides.getD b) y := by
  obtain ⟨r, s⟩ := x
  cases d with
  | respond =>
    simp only [Doing.run, Option.some.injEq] at hr
    subst hr
    exact ⟨h.numbered, h.total, rfl, (by intro i hi; simp [Descriptors.clear] at hi), (by intro i hi; simp [Descriptors.clear] at hi)⟩
  | call c =>
    cases c with
    | attachment content size =>
      simp only [Doing.run, Option.some.injEq] at hr
      subst hr
      exact ⟨h.numbered, h.total, rfl, (by intro i hi; simp [Descriptors.attachment] at hi),
        (by intro i hi; simp [Descriptors.attachment] at hi)⟩
    | file a =>
      simp only [Doing.run, Option.some.injEq] at hr
      subst hr
      have ht := h.total
      simp only at ht
      cases a with
      | noFile =>
        refine ⟨h.numbered, h.total, h.fd, h.live, ?_⟩
        intro i hi
        obtain ⟨q, hq⟩ := h.reader i hi
        exact ⟨q, by simpa [Descriptors.file, Fields.file, Fields.tryFile, error_attachment] using hq⟩
      | noStat =>
        refine ⟨h.numbered.opened, (by simp [Descriptors.file, Files.opened, Doing.opens]; omega), h.fd, ?_, ?_⟩
        · intro i hi
          exact List.mem_append_left _ (h.live i hi)
        · intro i hi
          obtain ⟨q, hq⟩ := h.reader i hi
          exact ⟨q, by simpa [Descriptors.file, Fields.file, Fields.tryFile, error_attachment] using hq⟩
      | directory =>
        refine ⟨h.numbered.opened, (by simp [Descriptors.file, Files.opened, Doing.opens]; omega), h.fd, ?_, ?_⟩
        · intro i hi
          exact List.mem_append_left _ (h.live i hi)
        · intro i hi
          obtain ⟨q, hq⟩ := h.reader i hi
          exact ⟨q, by simpa [Descriptors.file, Fields.file, Fields.tryFile, error_attachment] using hq⟩
      | file content size mime =>
        refine ⟨h.numbered.opened, (by simp [Descriptors.file, Files.opened, Doing.opens]; omega), rfl, ?_, ?_⟩
        · intro i hi
          simp only [Descriptors.file, Option.some.injEq] at hi
          subst hi
          simp [Descriptors.file, Files.opened]
        · intro i _
          exact ⟨content, rfl⟩
    | _ =>
      simp only [Doing.run, Option.map_eq_some_iff] at hr
      obtain ⟨f, hf, rfl⟩ := hr
      have ha := call_attachment hf (by simp) (by simp)
      refine ⟨h.numbered, h.total, h.fd, h.live, ?_⟩
      intro i hi
      obtain ⟨q, hq⟩ := h.reader i hi
      exact ⟨q, by simp only [ha]; exact hq⟩

theorem making_run {F : Fold} {text : GoErr → Bytes} {n : Nat} (ds : List Doing) : ∀ {k : Nat} {b : Bool} {x y : Resp × Files},
    Making n k b x → runDoings F text x ds = some y →
    Making n (k + ds.countP Doing.opens) (lastOr b (ds.map Doing.decides)) y := by
  induction ds with
  | nil =>
    intro k b x y h hr
    simp only [runDoings, Option.some.injEq] at hr
    subst hr
    exact h
  | cons d ds ih =>
    intro k b x y h hr
    simp only [runDoings] at hr
    cases hd : d.run F text x with
    | none => rw [hd] at hr; simp at hr
    | some z =>
      rw [hd] at hr
      have := ih (making_step d h hd) hr
      rw [List.countP_cons]
      rw [show k + (ds.countP Doing.opens + if d.opens = true then 1 else 0) = k + d.opens.toNat + ds.countP Doing.opens by
        cases d.opens <;> simp <;> omega]
      exact this

/-- Closing one of the open files. -/
theorem close_length {s : Files} (h : Numbered s) {i : Nat} (hi : i ∈ s.still) : (s.close i).still.length + 1 = s.still.length := by
  have key : ∀ (l : List Nat), l.Nodup → i ∈ l → (l.filter (· ≠ i)).length + 1 = l.length := by
    intro l
    induction l with
    | nil => intro _ h; cases h
    | cons a l ih =>
      intro hn hm
      rw [List.nodup_cons] at hn
      by_cases ha : a = i
      · subst ha
        rw [List.filter_cons_of_neg (by simp), List.filter_eq_self.2 (by
          intro b hb
          simp only [decide_eq_true_eq]
          rintro rfl
          exact hn.1 hb)]
        rfl
      · rw [List.filter_cons_of_pos (by simpa using ha)]
        have := ih hn.2 ((List.mem_cons.1 hm).resolve_left (fun e => ha e.symm))
        simp only [List.length_cons]
        omega
  exact key _ h.1 hi

theorem closed_iff (F : Fold) (n : Int) (hn : n < 16 ^ 8) {defaults : List (Bytes × Bytes)} (hd : DefaultsOK F defaults)
    (history : List Sent) (p : Proto) (req : Request) {f : Fields} {r : Reader} (ha : f.Attachment.content = some r) (c : Client) :
    ((serializerAfter F n defaults history).write F p req f c).closed = true ↔ req.Method ≠ .HEAD ∧ (c.write []).1 = none := by
  constructor
  · intro h
    rw [write_attachment F _ p req f c r ha] at h
    simp only at h
    cases hw : c.write (attachText F (serializerAfter F n defaults history) p f) with
    | mk e c1 =>
      rw [hw] at h
      have he : (c.write []).1 = e := by
        rw [show (c.write []).1 = (c.write (attachText F (serializerAfter F n defaults history) p f)).1 from rfl, hw]
      cases e with
      | some e => simp at h
      | none =>
        refine ⟨?_, he⟩
        intro hm
        simp [hm] at h
  · rintro ⟨hm, hw⟩
    exact C64_attachment_closed_partial F n hn hd history p req hm ha c hw

/-- C94, exactly: whatever a handler does with its response (any methods, any files, starting anew), after the response has been sent there are as many files
more open than before as were opened, less one if the response is a file in the end, the request is not HEAD and the head could be written. -/
theorem C94_left_open (F : Fold) (text : GoErr → Bytes) (n : Int) (hn : n < 16 ^ 8) {defaults : List (Bytes × Bytes)} (hd : DefaultsOK F defaults)
    (history : List Sent) (p : Proto) (req : Request) (c : Client) (before : Files) (hb : Numbered before) (f₀ : Fields) (ds : List Doing)
    {r : Resp} {s : Files} (made : runDoings F text (⟨f₀, none⟩, before) ds = some (r, s)) :
    (Descriptors.write F (serializerAfter F n defaults history) p req r c s).2.still.length +
        (if answersFile ds = true ∧ req.Method ≠ .HEAD ∧ (c.write []).1 = none then 1 else 0) =
      before.still.length + ds.countP Doing.opens := by
  have h := making_run (F := F) (text := text) (n := before.still.length) ds (k := 0) (b := false)
    ⟨hb, rfl, rfl, (by intro i hi; cases hi), (by intro i hi; cases hi)⟩ made
  rw [Nat.zero_add] at h
  have hfd : answersFile ds = r.fd.isSome := h.fd
  have ht : s.still.length = _ := h.total
  simp only [Descriptors.write]
  cases hr : r.fd with
  | none =>
    rw [hr] at hfd
    simp [hfd, ht]
  | some i =>
    rw [hr] at hfd
    obtain ⟨q, hq⟩ := h.reader i hr
    have hc := closed_iff F n hn hd history p req hq c
    simp only at hc ⊢
    by_cases hw : req.Method ≠ .HEAD ∧ (c.write []).1 = none
    · rw [if_pos (hc.2 hw), if_pos ⟨hfd, hw⟩]
      have := close_length h.numbered (h.live i hr)
      simp only at this
      omega
    · rw [if_neg (fun e => hw (hc.1 e)), if_neg (fun e => hw e.2), ht]
      rfl

/-- C94, where it holds: a handler which opens files by one call only, whose file is what is sent, to a request other than HEAD, leaves no file open. -/
theorem C94_closed_partial (F : Fold) (text : GoErr → Bytes) (n : Int) (hn : n < 16 ^ 8) {defaults : List (Bytes × Bytes)} (hd : DefaultsOK F defaults)
    (history : List Sent) (p : Proto) (req : Request) (hm : req.Method ≠ .HEAD) (c : Client) (hw : (c.write []).1 = none) (before : Files)
    (hb : Numbered before) (f₀ : Fields) (ds : List Doing) (one : ds.countP Doing.opens = 1) (sent : answersFile ds = true)
    {r : Resp} {s : Files} (made : runDoings F text (⟨f₀, none⟩, before) ds = some (r, s)) :
    (Descriptors.write F (serializerAfter F n defaults history) p req r c s).2.still.length = before.still.length := by
  have h := C94_left_open F text n hn hd history p req c before hb f₀ ds made
  rw [if_pos ⟨sent, hm, hw⟩, one] at h
  omega

/-- A file with the content "hi". -/
def hiFile : Doing := .call (.file (.file [(b!"hi", none)] 2 b!"text/plain"))

example : [Doing.respond, .call (.code 200), hiFile, .call (.header b!"X" [b!"y"])].countP Doing.opens = 1 ∧
    answersFile [Doing.respond, .call (.code 200), hiFile, .call (.header b!"X" [b!"y"])] = true ∧
    ∃ r s, runDoings Fold.ascii (fun _ => []) (⟨Fields.new, none⟩, {}) [Doing.respond, .call (.code 200), hiFile, .call (.header b!"X" [b!"y"])] =
      some (r, s) ∧ s.still = [0] := by
  refine ⟨by decide, by decide, _, _, rfl, rfl⟩

/-- `k` requests one after another, each answered by the same calls, on connections which take everything. -/
def repeated (F : Fold) (text : GoErr → Bytes) (d : Serializer) (p : Proto) (req : Request) (ds : List Doing) : Nat → Files → Option Files
  | 0, s => some s
  | k + 1, s => (runDoings F text (⟨Fields.new, none⟩, s) ds).bind (fun x =>
      repeated F text d p req ds k (Descriptors.write F d p req x.1 {} x.2).2)

theorem repeated_leaks (F : Fold) (text : GoErr → Bytes) (d : Serializer) (p : Proto) (req : Request) (ds : List Doing)
    (one : ∀ s : Files, ∃ r, runDoings F text (⟨Fields.new, none⟩, s) ds = some (r, s.opened) ∧ (Descriptors.write F d p req r {} s.opened).2 = s.opened) (k : Nat) :
    ∀ s : Files, ∃ s', repeated F text d p req ds k s = some s' ∧ s'.still.length = s.still.length + k := by
  induction k with
  | zero => exact fun s => ⟨s, rfl, rfl⟩
  | succ k ih =>
    intro s
    obtain ⟨r, h1, h2⟩ := one s
    obtain ⟨s', h3, h4⟩ := ih s.opened
    refine ⟨s', ?_, ?_⟩
    · simp only [repeated, h1, Option.bind_some, h2, h3]
    · rw [h4]
      simp [Files.opened]
      omega

/-- C94 is false of the code: each request for a directory (404) leaves a file open; so do, by `Static`, any number of requests. -/
theorem C94_directories_violation (k : Nat) :
    ∃ s, repeated Fold.ascii (fun _ => []) (Serializer.new 16 []) Proto.HTTP11 sampleReq [.respond, .call (.file .directory)] k {} = some s ∧
      s.still.length = k := by
  obtain ⟨s, h1, h2⟩ := repeated_leaks Fold.ascii (fun _ => []) (Serializer.new 16 []) Proto.HTTP11 sampleReq [.respond, .call (.file .directory)]
    (fun s => ⟨_, rfl, rfl⟩) k {}
  exact ⟨s, h1, by rw [h2]; simp⟩

/-- C94 is false of the code: a file which is replaced by another one before the response is sent stays open. -/
theorem C94_replaced_violation :
    ∃ r s, runDoings Fold.ascii (fun _ => []) (⟨Fields.new, none⟩, {}) [hiFile, hiFile] = some (r, s) ∧
      (Descriptors.write Fold.ascii (Serializer.new 16 []) Proto.HTTP11 sampleReq r {} s).2.still = [0] :=
  ⟨_, _, rfl, by decide⟩

/-- C94 is false of the code: a handler opens a file and then answers with something else, starting anew by `Respond` (as `http.Error` does): the
file stays open. -/
theorem C94_forgotten_violation :
    ∃ r s, runDoings Fold.ascii (fun _ => []) (⟨Fields.new, none⟩, {}) [hiFile, .respond, .call (.error (some .eof) [])] = some (r, s) ∧
      (Descriptors.write Fold.ascii (Serializer.new 16 []) Proto.HTTP11 sampleReq r {} s).2.still = [0] :=
  ⟨_, _, rfl, by decide⟩

end Indigo.Props
