/-
C85: a server with a self-signed certificate starts again after crashes, unless they come at the wrong moment.
-/
import Verif.Spec.Certs

namespace Indigo.Certs

private theorem steps_add (X : Crypto) (n : Nat) (s : Disk × Pc) (a b : List Outcome) :
    steps X n s (a ++ b) = steps X n (steps X n s a) b := by
  simp [steps, List.foldl_append]

private theorem steps_cons (X : Crypto) (n : Nat) (s : Disk × Pc) (o : Outcome) (os : List Outcome) :
    steps X n s (o :: os) = steps X n (step X n s o) os := rfl

private theorem steps_serving (X : Crypto) (n : Nat) (d : Disk) (c k : Bytes) : ∀ os, steps X n (d, .serving c k) os = (d, .serving c k)
  | [] => rfl
  | o :: os => by
    rw [steps_cons]
    have : step X n (d, .serving c k) o = (d, .serving c k) := by cases o <;> rfl
    rw [this]
    exact steps_serving X n d c k os

private theorem steps_refused (X : Crypto) (n : Nat) (d : Disk) : ∀ os, steps X n (d, .refused) os = (d, .refused)
  | [] => rfl
  | o :: os => by
    rw [steps_cons]
    have : step X n (d, .refused) o = (d, .refused) := by cases o <;> rfl
    rw [this]
    exact steps_refused X n d os

private theorem steps_dead (X : Crypto) (n : Nat) (d : Disk) : ∀ os, steps X n (d, .dead) os = (d, .dead)
  | [] => rfl
  | o :: os => by
    rw [steps_cons]
    have : step X n (d, .dead) o = (d, .dead) := by cases o <;> rfl
    rw [this]
    exact steps_dead X n d os

private theorem writeAt_end (f b : Bytes) : writeAt f f.length b = f ++ b := by
  simp [writeAt]

private theorem write_cert (X : Crypto) (n : Nat) (dir : Bool) (key : Option Bytes) : ∀ (rest : List Bytes) (w : Bytes),
    steps X n (⟨dir, some w, key⟩, .writeCert w.length rest) (List.replicate (rest.length + 1) .ok) =
      (⟨dir, some (w ++ rest.flatten), key⟩, .createKey)
  | [], w => by simp [steps, step]
  | b :: rest, w => by
    rw [List.length_cons, List.replicate_succ, steps_cons]
    have : step X n (⟨dir, some w, key⟩, .writeCert w.length (b :: rest)) .ok =
        (⟨dir, some (w ++ b), key⟩, .writeCert (w ++ b).length rest) := by simp [step, writeAt_end]
    rw [this, write_cert X n dir key rest]
    simp

private theorem write_key (X : Crypto) (n : Nat) (dir : Bool) (cert : Option Bytes) : ∀ (rest : List Bytes) (w : Bytes),
    steps X n (⟨dir, cert, some w⟩, .writeKey w.length rest) (List.replicate (rest.length + 1) .ok) =
      (⟨dir, cert, some (w ++ rest.flatten)⟩, .readCert)
  | [], w => by simp [steps, step]
  | b :: rest, w => by
    rw [List.length_cons, List.replicate_succ, steps_cons]
    have : step X n (⟨dir, cert, some w⟩, .writeKey w.length (b :: rest)) .ok =
        (⟨dir, cert, some (w ++ b)⟩, .writeKey (w ++ b).length rest) := by simp [step, writeAt_end]
    rw [this, write_key X n dir cert rest]
    simp

private theorem to_createKey (X : Crypto) (n : Nat) (d : Disk) :
    steps X n (d, .mkdir) (List.replicate ((X.certPem n).length + 4) .ok) = (⟨true, some (X.certPem n).flatten, d.key⟩, .createKey) := by
  have e : List.replicate ((X.certPem n).length + 4) Outcome.ok = [.ok, .ok, .ok] ++ List.replicate ((X.certPem n).length + 1) .ok := by
    simp [List.replicate_succ]
  have h3 : steps X n (d, .mkdir) [.ok, .ok, .ok] = (⟨true, some [], d.key⟩, .writeCert ([] : Bytes).length (X.certPem n)) := by
    simp [steps, step]
  rw [e, steps_add, h3, write_cert]
  simp

private theorem key_written (X : Crypto) (n : Nat) (cert : Option Bytes) (key : Option Bytes) :
    steps X n (⟨true, cert, key⟩, .createKey) (List.replicate ((X.keyPem n).length + 3) .ok) =
      (⟨true, cert, some (X.keyPem n).flatten⟩, .readCert) := by
  have e : List.replicate ((X.keyPem n).length + 3) Outcome.ok = [.ok, .ok] ++ List.replicate ((X.keyPem n).length + 1) .ok := by
    simp [List.replicate_succ]
  have h3 : steps X n (⟨true, cert, key⟩, .createKey) [.ok, .ok] = (⟨true, cert, some []⟩, .writeKey ([] : Bytes).length (X.keyPem n)) := by
    simp [steps, step]
  rw [e, steps_add, h3, write_key]
  simp

private theorem load (X : Crypto) (n : Nat) (dir : Bool) (c k : Bytes) :
    steps X n (⟨dir, some c, some k⟩, .readCert) [.ok, .ok] = (⟨dir, some c, some k⟩, if X.loads c k then .serving c k else .refused) := by
  simp [steps, step]

private theorem fresh (X : Crypto) (hX : Sound X) (n : Nat) (d : Disk) :
    steps X n (d, .mkdir) (List.replicate ((X.certPem n).length + (X.keyPem n).length + 9) .ok) =
      (⟨true, some (X.certPem n).flatten, some (X.keyPem n).flatten⟩, .serving (X.certPem n).flatten (X.keyPem n).flatten) := by
  have e : List.replicate ((X.certPem n).length + (X.keyPem n).length + 9) Outcome.ok = List.replicate ((X.certPem n).length + 4) .ok ++
      (List.replicate ((X.keyPem n).length + 3) .ok ++ List.replicate 2 .ok) := by
    rw [List.replicate_append_replicate, List.replicate_append_replicate]
    congr 1
    omega
  rw [e, steps_add, steps_add, to_createKey, key_written]
  change steps X n _ [.ok, .ok] = _
  rw [load, if_pos (hX.own n)]

private theorem more (X : Crypto) (n : Nat) {s : Disk × Pc} {d : Disk} {c k : Bytes} {m : Nat} (h : steps X n s (List.replicate m .ok) = (d, .serving c k))
    {m' : Nat} (le : m ≤ m') : steps X n s (List.replicate m' .ok) = (d, .serving c k) := by
  obtain ⟨x, rfl⟩ := Nat.exists_eq_add_of_le le
  rw [← List.replicate_append_replicate, steps_add, h, steps_serving]

/-- Undisturbed starts: with both files loading, they are used; otherwise, with one of them missing, a new pair is. -/
private theorem undisturbed (X : Crypto) (hX : Sound X) (n : Nat) (d : Disk) (m : Nat) (long : enough X n ≤ m) :
    (∀ c k, d.cert = some c → d.key = some k → X.loads c k = true → start X n d (List.replicate m .ok) = (d, .serving c k)) ∧
    (d.cert = none ∨ d.key = none → start X n d (List.replicate m .ok) =
      (⟨true, some (X.certPem n).flatten, some (X.keyPem n).flatten⟩, .serving (X.certPem n).flatten (X.keyPem n).flatten)) := by
  unfold enough at long
  obtain ⟨dir, cert, key⟩ := d
  simp only
  refine ⟨?_, ?_⟩
  · rintro c k rfl rfl hl
    refine more X n (m := 4) ?_ (by omega)
    change steps X n (steps X n (⟨dir, some c, some k⟩, .statCert) [.ok, .ok]) [.ok, .ok] = _
    rw [show steps X n (⟨dir, some c, some k⟩, .statCert) [.ok, .ok] = (⟨dir, some c, some k⟩, .readCert) from rfl, load, if_pos hl]
  · intro h
    cases cert with
    | none =>
      refine more X n (m := (X.certPem n).length + (X.keyPem n).length + 9 + 1) ?_ (by omega)
      rw [List.replicate_succ, steps_cons]
      exact fresh X hX n _
    | some c =>
      simp at h
      subst h
      refine more X n (m := (X.certPem n).length + (X.keyPem n).length + 9 + 1 + 1) ?_ (by omega)
      rw [List.replicate_succ, steps_cons, List.replicate_succ, steps_cons]
      exact fresh X hX n _

/-- What holds between starts. -/
private def Good (X : Crypto) (d : Disk) : Prop :=
  d.key = none ∨ ∃ c k, d.cert = some c ∧ d.key = some k ∧ X.loads c k = true

/-- What holds during a start. -/
private def Inv (X : Crypto) (n : Nat) (d : Disk) : Pc → Prop
  | .statCert => Good X d
  | .statKey => Good X d
  | .writeCert off rest => ∃ w, d.cert = some w ∧ off = w.length ∧ w ++ rest.flatten = (X.certPem n).flatten
  | .createKey => d.cert = some (X.certPem n).flatten
  | .marshal => d.cert = some (X.certPem n).flatten ∧ d.key = some []
  | .writeKey off rest => d.cert = some (X.certPem n).flatten ∧ ∃ w, d.key = some w ∧ off = w.length ∧ w ++ rest.flatten = (X.keyPem n).flatten
  | .readCert => Good X d
  | .readKey _ => Good X d
  | .serving _ _ => Good X d
  | .refused => Good X d
  | _ => True

private theorem step_inv (X : Crypto) (hX : Sound X) (n : Nat) (d : Disk) (pc : Pc) (o : Outcome) (h : Inv X n d pc) :
    Inv X n (step X n (d, pc) o).1 (step X n (d, pc) o).2 := by
  cases o with
  | crash => cases pc <;> simp_all [step, Inv]
  | fail => cases pc <;> simp_all [step, Inv]
  | ok =>
    cases pc with
    | statCert => simp only [step]; split <;> simp_all [Inv]
    | statKey => simp only [step]; split <;> simp_all [Inv]
    | createCert =>
      simp only [step]
      split
      · exact ⟨[], rfl, rfl, rfl⟩
      · trivial
    | writeCert off rest =>
      obtain ⟨w, h1, h2, h3⟩ := h
      cases rest with
      | nil =>
        simp only [step, Inv]
        rw [h1, ← h3]; simp
      | cons b rest =>
        subst h2
        refine ⟨w ++ b, ?_, ?_, ?_⟩
        · simp [step, h1, writeAt_end]
        · simp
        · rw [← h3]; simp
    | createKey =>
      simp only [step]
      split
      · exact ⟨h, rfl⟩
      · trivial
    | marshal => exact ⟨h.1, [], h.2, rfl, rfl⟩
    | writeKey off rest =>
      obtain ⟨h0, w, h1, h2, h3⟩ := h
      cases rest with
      | nil =>
        simp only [step, Inv]
        refine .inr ⟨_, w, h0, h1, ?_⟩
        have : w = (X.keyPem n).flatten := by rw [← h3]; simp
        rw [this]
        exact hX.own n
      | cons b rest =>
        subst h2
        refine ⟨h0, w ++ b, ?_, ?_, ?_⟩
        · simp [step, h1, writeAt_end]
        · simp
        · rw [← h3]; simp
    | readCert => simp only [step]; split <;> exact h
    | readKey c =>
      simp only [step]
      split
      · split <;> exact h
      · exact h
    | _ => simp_all [step, Inv]

private theorem steps_inv (X : Crypto) (hX : Sound X) (n : Nat) : ∀ (os : List Outcome) (d : Disk) (pc : Pc), Inv X n d pc →
    Inv X n (steps X n (d, pc) os).1 (steps X n (d, pc) os).2
  | [], _, _, h => h
  | o :: os, d, pc, h => by
    rw [steps_cons]
    exact steps_inv X hX n os _ _ (step_inv X hX n d pc o h)

private theorem good_after (X : Crypto) (hX : Sound X) (n : Nat) (d : Disk) (os : List Outcome) (h : Good X d)
    (hh : Harmless d (start X n d os)) : Good X (start X n d os).1 := by
  have hi := steps_inv X hX n os d .statCert h
  change Inv X n (start X n d os).1 (start X n d os).2 at hi
  generalize start X n d os = r at hi hh
  obtain ⟨d', pc⟩ := r
  rcases hh with hh | hh | ⟨h1, h2⟩
  · simp only at hh hi ⊢
    cases pc <;> simp_all [Pc.loaded, Inv]
  · exact .inl hh
  · unfold Good at h ⊢
    simp only at h1 h2 ⊢
    rw [h1, h2]
    exact h

private theorem good_starts (X : Crypto) (hX : Sound X) : ∀ (life : List (List Outcome)) (n : Nat) (d : Disk), Good X d → AllHarmless X n d life →
    Good X (starts X n d life).1
  | [], _, _, h, _ => h
  | os :: life, n, d, h, hh => good_starts X hX life (n + 1) _ (good_after X hX n d os h hh.1) hh.2

/-- **C85 (part).** Whatever happened in earlier starts of an application with AutoHTTPS on a local host - failures and crashes at any
point, except those which leave a key file without getting to load it -, a start which is not disturbed serves HTTPS, with a certificate
and its key, the ones in the files; not disturbed, it needs a bounded number of steps. -/
theorem C85_next_start_partial (X : Crypto) (hX : Sound X) (life : List (List Outcome)) (harmless : AllHarmless X 0 {} life) (m : Nat)
    (long : enough X life.length ≤ m) :
    ∃ d c k, start X life.length (starts X 0 {} life).1 (List.replicate m .ok) = (d, .serving c k) ∧
      d.cert = some c ∧ d.key = some k ∧ X.loads c k = true := by
  have hg := good_starts X hX life 0 {} (.inl rfl) harmless
  generalize (starts X 0 {} life).1 = d at hg
  obtain ⟨u1, u2⟩ := undisturbed X hX life.length d m long
  rcases hg with hg | ⟨c, k, h1, h2, h3⟩
  · exact ⟨_, _, _, u2 (.inr hg), rfl, rfl, hX.own _⟩
  · exact ⟨_, _, _, u1 c k h1 h2 h3, h1, h2, h3⟩

/-- **C85 (part).** A pair which loads is used again by all later starts, also by those which crash: the files stay, and an undisturbed
start serves with them. (Clients which trusted the certificate go on doing so.) -/
theorem C85_used_again (X : Crypto) (hX : Sound X) (d : Disk) (c k : Bytes) (hc : d.cert = some c) (hk : d.key = some k) (hl : X.loads c k = true)
    (n : Nat) (life : List (List Outcome)) (nofail : ∀ os ∈ life, .fail ∉ os) (m : Nat) (long : enough X (n + life.length) ≤ m) :
    (starts X n d life).1 = d ∧ start X (n + life.length) d (List.replicate m .ok) = (d, .serving c k) := by
  refine ⟨?_, (undisturbed X hX _ d m long).1 c k hc hk hl⟩
  clear long
  have one : ∀ (n : Nat) (os : List Outcome), .fail ∉ os → (start X n d os).1 = d := by
    intro n os ho
    obtain ⟨dir, cert, key⟩ := d
    simp only at hc hk
    subst hc hk
    have go : ∀ (os : List Outcome) (pc : Pc), .fail ∉ os → (pc = .statCert ∨ pc = .statKey ∨ pc = .readCert ∨ (∃ c, pc = .readKey c) ∨ (∃ c k, pc = .serving c k) ∨
        pc = .refused ∨ pc = .dead) → (steps X n (⟨dir, some c, some k⟩, pc) os).1 = ⟨dir, some c, some k⟩ := by
      intro os
      induction os with
      | nil => intros; rfl
      | cons o os ih =>
        intro pc ho hpc
        rw [steps_cons]
        simp only [List.mem_cons, not_or] at ho
        have hne := ho.1
        rcases hpc with rfl | rfl | rfl | ⟨c', rfl⟩ | ⟨c', k', rfl⟩ | rfl | rfl <;> cases o <;>
          first
          | exact absurd rfl hne
          | exact ih _ ho.2 (by simp only; split <;> simp_all)
          | exact ih _ ho.2 (by simp)
          | (simp only [step]; split <;> exact ih _ ho.2 (by simp))
    exact go os .statCert ho (.inl rfl)
  induction life generalizing n with
  | nil => rfl
  | cons os life ih =>
    simp only [starts]
    rw [one n os (nofail os (by simp))]
    exact ih (n + 1) (fun os h => nofail os (by simp [h]))

/-- Files which do not load stay so for all starts without failures. -/
private theorem stuck (X : Crypto) (n : Nat) (d : Disk) (c k : Bytes) (hc : d.cert = some c) (hk : d.key = some k) (hl : X.loads c k = false)
    (m : Nat) (long : 4 ≤ m) : start X n d (List.replicate m .ok) = (d, .refused) := by
  obtain ⟨x, rfl⟩ := Nat.exists_eq_add_of_le long
  obtain ⟨dir, cert, key⟩ := d
  simp only at hc hk
  subst hc hk
  rw [← List.replicate_append_replicate]
  unfold start
  rw [steps_add]
  change steps X n (steps X n (steps X n (⟨dir, some c, some k⟩, .statCert) [.ok, .ok]) [.ok, .ok]) _ = _
  rw [show steps X n (⟨dir, some c, some k⟩, .statCert) [.ok, .ok] = (⟨dir, some c, some k⟩, .readCert) from rfl, load, hl]
  exact steps_refused X n _ _

/-- **C85** fails: whatever the pair, if the very first start crashes just after it has created the key file, then no later start serves
HTTPS any more, how often it is tried and undisturbed: `Serve` returns an error each time, and the files stay. -/
theorem C85_crash_violation (X : Crypto) (hX : Sound X) :
    ∃ crashing : List Outcome, .fail ∉ crashing ∧ (start X 0 {} crashing).2 = .dead ∧
      ∀ (tries : List Nat) (n : Nat), (∀ m ∈ tries, 4 ≤ m) →
        (starts X n (start X 0 {} crashing).1 (tries.map (List.replicate · .ok))).2 = tries.map (fun _ => Pc.refused) := by
  have hs : start X 0 {} (.ok :: (List.replicate ((X.certPem 0).length + 4) .ok ++ [.ok, .crash])) =
      (⟨true, some (X.certPem 0).flatten, some []⟩, .dead) := by
    unfold start
    rw [steps_cons, show step X 0 ({}, .statCert) .ok = ({}, .mkdir) from rfl, steps_add, to_createKey]
    rfl
  refine ⟨.ok :: (List.replicate ((X.certPem 0).length + 4) .ok ++ [.ok, .crash]), by simp, by rw [hs], ?_⟩
  rw [hs]
  intro tries
  induction tries with
  | nil => intros; rfl
  | cons m tries ih =>
    intro n hm
    have := stuck X n ⟨true, some (X.certPem 0).flatten, some []⟩ _ _ rfl rfl (hX.empty _) m (hm m (by simp))
    simp only [List.map_cons, starts, this]
    rw [ih (n + 1) (fun m h => hm m (by simp [h]))]

/-- **C85** fails also after a failure which passes: if looking for the files fails (not because they are missing; for instance, there are
too many open files), a pair which loads is overwritten. The start serves, but with a new certificate, which no client trusts. -/
theorem C85_stat_violation (X : Crypto) (hX : Sound X) (d : Disk) (n m : Nat) (long : enough X n ≤ m) :
    start X n d (.fail :: List.replicate m .ok) =
      (⟨true, some (X.certPem n).flatten, some (X.keyPem n).flatten⟩, .serving (X.certPem n).flatten (X.keyPem n).flatten) ∧
    (d.cert.isSome → start X n d (.ok :: .fail :: List.replicate m .ok) =
      (⟨true, some (X.certPem n).flatten, some (X.keyPem n).flatten⟩, .serving (X.certPem n).flatten (X.keyPem n).flatten)) := by
  unfold enough at long
  refine ⟨more X n (fresh X hX n d) (by omega), fun h => ?_⟩
  unfold start
  rw [steps_cons, show step X n (d, .statCert) .ok = (d, .statKey) by simp [step, h]]
  exact more X n (fresh X hX n d) (by omega)

private theorem both_first (X : Crypto) (q : Pc) : ∀ (m : Nat) (d : Disk) (p : Pc),
    both X (d, p, q) (List.replicate m false) = ((steps X 0 (d, p) (List.replicate m .ok)).1, (steps X 0 (d, p) (List.replicate m .ok)).2, q)
  | 0, _, _ => rfl
  | m + 1, d, p => by
    rw [List.replicate_succ, List.replicate_succ, steps_cons]
    simp only [both]
    exact both_first X q m _ _

private theorem both_second (X : Crypto) (p : Pc) : ∀ (m : Nat) (d : Disk) (q : Pc),
    both X (d, p, q) (List.replicate m true) = ((steps X 1 (d, q) (List.replicate m .ok)).1, p, (steps X 1 (d, q) (List.replicate m .ok)).2)
  | 0, _, _ => rfl
  | m + 1, d, q => by
    rw [List.replicate_succ, List.replicate_succ, steps_cons]
    simp only [both]
    exact both_second X p m _ _

private theorem both_append (X : Crypto) : ∀ (a b : List Bool) (s : Disk × Pc × Pc), both X s (a ++ b) = both X (both X s a) b
  | [], _, _ => rfl
  | false :: a, b, s => by simp only [List.cons_append, both]; exact both_append X a b _
  | true :: a, b, s => by simp only [List.cons_append, both]; exact both_append X a b _

/-- **C85** fails also without crashes and failures: two applications which are started for the first time at the same time may leave the
certificate of one with the key of the other; both are refused then, as are all which are started later. -/
theorem C85_race_violation (X : Crypto) (hX : Sound X) :
    ∃ schedule d, both X ({}, .statCert, .statCert) schedule = (d, .refused, .refused) ∧
      ∀ n m, 4 ≤ m → start X n d (List.replicate m .ok) = (d, .refused) := by
  have hl := hX.other 1 0 (by omega)
  refine ⟨List.replicate 1 true ++ (List.replicate ((X.certPem 0).length + 5) false ++ (List.replicate ((X.certPem 1).length + 4) true ++
    (List.replicate ((X.keyPem 1).length + 3) true ++ (List.replicate ((X.keyPem 0).length + 3) false ++ (List.replicate 2 false ++ List.replicate 2 true))))),
    ⟨true, some (X.certPem 1).flatten, some (X.keyPem 0).flatten⟩, ?_, fun n m hm => stuck X n _ _ _ rfl rfl hl m hm⟩
  rw [both_append, both_append, both_append, both_append, both_append, both_append]
  rw [both_second X .statCert 1 {} .statCert]
  have e1 : steps X 1 ({}, .statCert) (List.replicate 1 .ok) = ({}, .mkdir) := rfl
  have e2 : steps X 0 ({}, .statCert) (List.replicate ((X.certPem 0).length + 5) .ok) = (⟨true, some (X.certPem 0).flatten, none⟩, .createKey) := by
    rw [List.replicate_succ, steps_cons]
    exact to_createKey X 0 {}
  rw [e1, both_first X .mkdir _ {} .statCert, e2, both_second X .createKey, to_createKey, both_second X .createKey, key_written, both_first X .readCert, key_written, both_first X .readCert]
  change both X ((steps X 0 _ [.ok, .ok]).1, (steps X 0 _ [.ok, .ok]).2, _) _ = _
  rw [load, hl, both_second]
  change ((steps X 1 _ [.ok, .ok]).1, _, (steps X 1 _ [.ok, .ok]).2) = _
  rw [load, hl]
  rfl

/-- Libraries which keep the contract: the files are just the number of the pair, written in two pieces. -/
def toy : Crypto where
  certPem n := [b!"C", List.replicate n 49]
  keyPem n := [b!"K", List.replicate n 49]
  loads c k := decide (c.head? = some 67 ∧ k.head? = some 75 ∧ c.tail = k.tail)

private theorem toy_sound : Sound toy where
  own n := by simp [toy]
  other n m h := by
    simp [toy]
    exact h
  empty c := by simp [toy]

/-- Four starts: killed while the certificate is written, failing to create the key file, undisturbed, killed while reading the files. -/
private def troubled : List (List Outcome) :=
  [[.ok, .ok, .ok, .ok, .ok, .crash], [.ok, .ok, .ok, .ok, .ok, .ok, .ok, .ok, .fail], List.replicate 20 .ok, [.ok, .ok, .ok, .crash]]

example : AllHarmless toy 0 {} troubled ∧ (starts toy 0 {} troubled).2 = [.dead, .disabled, .serving b!"C11" b!"K11", .dead] ∧
    start toy 4 (starts toy 0 {} troubled).1 (List.replicate 20 .ok) = (⟨true, some b!"C11", some b!"K11"⟩, .serving b!"C11" b!"K11") := by
  refine ⟨⟨?_, ?_, ?_, ?_, trivial⟩, by decide +kernel, by decide +kernel⟩
  · exact .inr (.inl (by decide +kernel))
  · exact .inr (.inl (by decide +kernel))
  · exact .inl (by decide +kernel)
  · exact .inr (.inr (by decide +kernel))

end Indigo.Certs
