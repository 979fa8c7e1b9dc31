/-
C44: virtual hosts.
-/
import Verif.Proofs.Virtual

namespace Indigo
open Indigo.Spec.Virtual Virtual

private theorem hostChar (c : Byte) (h : HostChar c) : isPlainTok c = true := by
  unfold HostChar at h
  unfold isPlainTok
  simp only [Bool.or_eq_true, Bool.and_eq_true, decide_eq_true_eq, beq_iff_eq]
  rcases h with h | h | h | h | h | h <;> simp [h]

private theorem lower_eq (F : Fold) (a b : Bytes) (ha : ∀ c ∈ a, HostChar c) (hb : ∀ c ∈ b, HostChar c) :
    F.eq a b = true ↔ lower a = lower b :=
  F.eq_iff_lower (fun c hc => hostChar c (ha c hc)) (fun c hc => hostChar c (hb c hc))

private theorem bare_sub (h : Bytes) : ∀ c ∈ bare h, c ∈ h := by
  intro c hc
  unfold bare at hc
  have h1 : ∀ c ∈ (if b!"www." <+: h then h.drop 4 else h), c ∈ h := by
    intro c hc
    by_cases hw : b!"www." <+: h
    · rw [if_pos hw] at hc; exact List.mem_of_mem_drop hc
    · rw [if_neg hw] at hc; exact hc
  generalize (if b!"www." <+: h then h.drop 4 else h) = d at h1 hc
  simp only at hc
  apply h1
  by_cases h2 : b!":80" <:+ d
  · rw [if_pos h2] at hc; exact List.mem_of_mem_take hc
  · rw [if_neg h2] at hc
    by_cases h3 : b!":443" <:+ d
    · rw [if_pos h3] at hc; exact List.mem_of_mem_take hc
    · rw [if_neg h3] at hc; exact hc

section
variable {m : Type → Type} [Monad m] {α ρ : Type}

/-- The virtual router built by `ops` and initialized, after a history of requests and errors. -/
abbrev vrouter (F : Fold) (I : RouterImpl m ρ) (init : α → ρ) (ops : List (Op α)) (history : List Event) : Runtime ρ :=
  after (impl F I) (initRouter init (build ops)) history

private theorem start (init : α → ρ) (ops : List (Op α)) :
    (initRouter init (build ops)).routers = (hostsRegistered ops).map (fun e => (bare e.1, init e.2)) ∧
    (initRouter init (build ops)).defaultRouter = (defaultsRegistered ops).getLast?.map init := by
  obtain ⟨e1, e2⟩ := build_eq ops
  unfold initRouter
  simp only
  rw [e1, e2]
  simp

/-- What the registered router number `i` has got, and the default one. -/
private def past (F : Fold) (init : α → ρ) (ops : List (Op α)) (history : List Event) (c : Choice) : List Event :=
  share F (initRouter init (build ops)) history c

private theorem routers_eq (F : Fold) (I : RouterImpl m ρ) (init : α → ρ) (ops : List (Op α)) (history : List Event) :
    (vrouter F I init ops history).routers =
      (hostsRegistered ops).mapIdx (fun i e => (bare e.1, after I (init e.2) (past F init ops history (.host i)))) ∧
    (vrouter F I init ops history).defaultRouter =
      (defaultsRegistered ops).getLast?.map (fun a => after I (init a) (past F init ops history .default)) := by
  obtain ⟨h1, h2⟩ := after_routers F I (initRouter init (build ops)) history
  obtain ⟨e1, e2⟩ := start init ops
  unfold vrouter past
  rw [h1, h2]
  constructor
  · apply List.ext_getElem?
    intro i
    rw [List.getElem?_mapIdx, List.getElem?_mapIdx, e1, List.getElem?_map]
    cases (hostsRegistered ops)[i]? <;> rfl
  · rw [e2, Option.map_map]; rfl

/-- The domains never change. -/
private theorem domains (F : Fold) (I : RouterImpl m ρ) (init : α → ρ) (ops : List (Op α)) (history : List Event) :
    (vrouter F I init ops history).routers.map Prod.fst = (hostsRegistered ops).map (fun e => bare e.1) := by
  rw [(routers_eq F I init ops history).1]
  apply List.ext_getElem?
  intro i
  simp only [List.getElem?_map, List.getElem?_mapIdx]
  cases (hostsRegistered ops)[i]? <;> rfl

/-- What is asked of the names of the headers and of hosts: letters, digits, `-`, `.` and `:` only. -/
structure Plain (req : Request) (ops : List (Op α)) : Prop where
  names : ∀ p ∈ req.Headers.pairs, ∀ c ∈ p.Key, HostChar c
  hosts : ∀ v ∈ hostsOf req, ∀ c ∈ v, HostChar c
  registered : ∀ e ∈ hostsRegistered ops, ∀ c ∈ e.1, HostChar c

/-- The same of all requests of a history. -/
def PlainHistory (history : List Event) (ops : List (Op α)) : Prop := ∀ e ∈ history, Plain e.req ops

omit [Monad m] in
private theorem find_idx (F : Fold) (v : Bytes) (l : List (Bytes × α)) (g : α → ρ) (i : Nat)
    (h : ∀ e ∈ l, (F.eq (bare e.1) v = true ↔ lower (bare e.1) = lower v)) :
    find F v i (l.map (fun e => (bare e.1, g e.2))) = (l.findIdx? (fun e => lower (bare e.1) == lower v)).map (· + i) := by
  induction l generalizing i with
  | nil => rfl
  | cons e l ih =>
    rw [List.map_cons, find, List.findIdx?_cons]
    by_cases he : F.eq (bare e.1) v = true
    · rw [if_pos he, if_pos (by rw [beq_iff_eq]; exact (h e (by simp)).1 he)]; simp
    · rw [if_neg he, if_neg (by rw [beq_iff_eq]; exact fun hc => he ((h e (by simp)).2 hc)),
        ih (i + 1) (fun e he => h e (by simp [he])), Option.map_map]
      congr 1
      funext x
      simp; omega

omit [Monad m] in
/-- The choice for a request is the one of the specification. -/
private theorem choice_target (F : Fold) (init : α → ρ) (ops : List (Op α)) (e : Event) (plain : Plain e.req ops) :
    choice F (initRouter init (build ops)) e = match target ops e.req with
      | .router i => .host i
      | .default => orDefault (initRouter init (build ops)) (if hostsOf e.req = [] then 400 else 421)
      | .nobody => .refuse 400 := by
  have hvals := hosts_eq F e.req (fun p hp c hc => hostChar c (plain.names p hp c hc))
  unfold choice getRouter target
  simp only [hvals]
  match hh : hostsOf e.req with
  | [] => rfl
  | [v] =>
    simp only
    have hvc : ∀ c ∈ v, HostChar c := plain.hosts v (by simp [hh])
    rw [(start init ops).1, find_idx F v (hostsRegistered ops) init 0
      (fun e he => lower_eq F _ _ (fun c hc => plain.registered e he c (bare_sub _ c hc)) hvc)]
    cases (hostsRegistered ops).findIdx? (fun e => lower (bare e.1) == lower v) with
    | none => rfl
    | some i => rfl
  | a :: b :: rest => rfl

omit [Monad m] in
private theorem forget_passed (F : Fold) (e : Event) : (passed F e).forget = e.forget := by cases e <;> rfl

omit [Monad m] in
/-- What the routers have got is what the specification says. -/
private theorem past_router (F : Fold) (init : α → ρ) (ops : List (Op α)) (history : List Event) (plain : PlainHistory history ops) (i : Nat) :
    (past F init ops history (.host i)).map Event.forget = (history.filter (fun e => target ops e.req = .router i)).map Event.forget := by
  unfold past share
  rw [List.map_map]
  have : (Event.forget ∘ passed F) = Event.forget := funext (forget_passed F)
  rw [this]
  congr 1
  apply List.filter_congr
  intro e he
  rw [choice_target F init ops e (plain e he)]
  cases target ops e.req with
  | router j => by_cases h : j = i <;> simp [h]
  | default => unfold orDefault; cases (initRouter init (build ops)).defaultRouter <;> simp
  | nobody => simp

omit [Monad m] in
private theorem past_default (F : Fold) (init : α → ρ) (ops : List (Op α)) (history : List Event) (plain : PlainHistory history ops)
    (hd : (defaultsRegistered ops).getLast? = some router) :
    (past F init ops history .default).map Event.forget = (history.filter (fun e => target ops e.req = .default)).map Event.forget := by
  unfold past share
  rw [List.map_map]
  have : (Event.forget ∘ passed F) = Event.forget := funext (forget_passed F)
  rw [this]
  congr 1
  apply List.filter_congr
  intro e he
  rw [choice_target F init ops e (plain e he)]
  have hd' : (initRouter init (build ops)).defaultRouter = some (init router) := by rw [(start init ops).2, hd]; rfl
  cases target ops e.req with
  | router j => simp
  | default => unfold orDefault; rw [hd']; simp
  | nobody => simp

private theorem dispatched (F : Fold) (I : RouterImpl m ρ) (r : Runtime ρ) (req : Request) (c : Choice)
    (hc : (getRouter F r req.Headers).1 = c) :
    ∃ hs : Storage, hs.pairs = req.Headers.pairs ∧
      onRequest F I r req = dispatch r { req with Headers := hs } (fun x => I.onRequest x { req with Headers := hs }) c ∧
      ∀ err, onError F I r req err =
        dispatch r { req with Headers := hs } (fun x => I.onError x { req with Headers := hs } err) c := by
  refine ⟨(getRouter F r req.Headers).2, ?_, ?_, ?_⟩
  · rfl
  · unfold onRequest; rw [← hc]
  · intro err; unfold onError; rw [← hc]

private theorem getRouter_one (F : Fold) (r : Runtime ρ) (req : Request) (v : Bytes)
    (hv : (req.Headers.values F b!"host").1 = [v]) :
    (getRouter F r req.Headers).1 = match find F v 0 r.routers with
      | some i => .host i
      | none => orDefault r Status.MisdirectedRequest := by
  unfold getRouter
  simp only [hv]
  cases find F v 0 r.routers <;> rfl

/-- A router (`router`) serves this request (errors too): its response is the response. -/
def ServedBy (F : Fold) (I : RouterImpl m ρ) (r : Runtime ρ) (req : Request) (x : ρ) : Prop :=
  ∃ hs : Storage, hs.pairs = req.Headers.pairs ∧
    ((impl F I).onRequest r req).1 = (I.onRequest x { req with Headers := hs }).1 ∧
    ∀ err, ((impl F I).onError r req err).1 = (I.onError x { req with Headers := hs } err).1

/-- The request (or error) is answered with this code and not passed to any router. -/
def RefusedWith (F : Fold) (I : RouterImpl m ρ) (r : Runtime ρ) (req : Request) (code : Status.Code) : Prop :=
  ∃ hs : Storage, hs.pairs = req.Headers.pairs ∧
    (impl F I).onRequest r req = (pure (Fields.new.code code, { req with Headers := hs }), r) ∧
    ∀ err, (impl F I).onError r req err = (pure (Fields.new.code code, { req with Headers := hs }), r)

/-- **C44 (part).** After any history, a request with one `Host` is served by the first router registered for a host
which, with its own default port and `www.` taken off, is the value as it was sent, up to letter case: whatever the
value is. It is served in the state to which its requests have brought that router: those of the history which are for
it, in their order, and no others. -/
theorem C44_selected_as_sent_partial (F : Fold) (I : RouterImpl m ρ) (init : α → ρ) (ops : List (Op α))
    (history : List Event)
    (req : Request) (v : Bytes) (before rest : List (Bytes × α)) (h : Bytes) (router : α)
    (plain : Plain req ops) (hv : hostsOf req = [v])
    (hops : hostsRegistered ops = before ++ (h, router) :: rest)
    (hsame : lower (bare h) = lower v) (hfirst : ∀ e ∈ before, lower (bare e.1) ≠ lower v) :
    ∃ past, ServedBy F I (vrouter F I init ops history) req (after I (init router) past) ∧
      (PlainHistory history ops →
        past.map Event.forget = (history.filter (fun e => target ops e.req = .router before.length)).map Event.forget) := by
  have hi := (routers_eq F I init ops history).1
  have hd := domains F I init ops history
  have hvals : (req.Headers.values F b!"host").1 = [v] := by
    rw [hosts_eq F req (fun p hp c hc => hostChar c (plain.names p hp c hc)), hv]
  have hvc : ∀ c ∈ v, HostChar c := plain.hosts v (by simp [hv])
  have heq : ∀ e ∈ hostsRegistered ops, (F.eq (bare e.1) v = true ↔ lower (bare e.1) = lower v) := by
    intro e he
    rw [lower_eq F _ _ (fun c hc => plain.registered e he c (bare_sub _ c hc)) hvc]
  refine ⟨past F init ops history (.host before.length), ?_, fun hp => past_router F init ops history hp _⟩
  generalize hr : vrouter F I init ops history = r at hi hd ⊢
  rw [hops] at hd heq
  have hx : r.routers[before.length]? = some (bare h, after I (init router) (past F init ops history (.host before.length))) := by
    rw [hi, List.getElem?_mapIdx, hops]; simp
  have hlen : before.length < r.routers.length := (List.getElem?_eq_some_iff.1 hx).1
  have hxx : r.routers[before.length] = (bare h, after I (init router) (past F init ops history (.host before.length))) :=
    (List.getElem?_eq_some_iff.1 hx).2
  have hsplit : r.routers = r.routers.take before.length ++
      (bare h, after I (init router) (past F init ops history (.host before.length))) :: r.routers.drop (before.length + 1) := by
    rw [← hxx, ← List.drop_eq_getElem_cons hlen, List.take_append_drop]
  have hfind : find F v 0 r.routers = some before.length := by
    rw [hsplit, find_first]
    · simp; omega
    · intro e he
      have : e.1 ∈ (r.routers.take before.length).map Prod.fst := List.mem_map_of_mem he
      rw [List.map_take, hd] at this
      simp only [List.map_append] at this
      rw [List.take_append_of_le_length (by simp), List.take_of_length_le (by simp)] at this
      obtain ⟨e', he', hee⟩ := List.mem_map.1 this
      have := fun hc => hfirst e' he' ((heq e' (by simp [he'])).1 hc)
      have hee' : bare e'.1 = e.1 := hee
      rw [hee'] at this
      simpa using this
    · exact (heq (h, router) (by simp)).2 hsame
  have hchoice := getRouter_one F r req v hvals
  rw [hfind] at hchoice
  replace hchoice : (getRouter F r req.Headers).1 = .host before.length := hchoice
  obtain ⟨hs, hp, e1, e2⟩ := dispatched F I r req _ hchoice
  refine ⟨hs, hp, ?_, ?_⟩
  · show (onRequest F I r req).1 = _
    rw [e1]; simp only [dispatch, hx]
  · intro err
    show (onError F I r req err).1 = _
    rw [e2 err]; simp only [dispatch, hx]

/-- **C44 (part).** After any history, a request with one `Host`, which is free of `www.` and of the default ports, is
served by the first router registered for the same host (up to letter case, the default port and `www.`), in the state
to which its requests have brought it: those of the history which are for it, in their order, and no others. Missing: `Host` values with `www.` or a default port
(see `C44_www_violation`, `C44_port_violation`). -/
theorem C44_selected_partial (F : Fold) (I : RouterImpl m ρ) (init : α → ρ) (ops : List (Op α)) (history : List Event)
    (req : Request) (v : Bytes) (before rest : List (Bytes × α)) (h : Bytes) (router : α)
    (plain : Plain req ops) (hv : hostsOf req = [v]) (hbare : bare v = v)
    (hops : hostsRegistered ops = before ++ (h, router) :: rest)
    (hsame : SameHost h v) (hfirst : ∀ e ∈ before, ¬ SameHost e.1 v) :
    ∃ past, ServedBy F I (vrouter F I init ops history) req (after I (init router) past) ∧
      (PlainHistory history ops →
        past.map Event.forget = (history.filter (fun e => target ops e.req = .router before.length)).map Event.forget) := by
  refine C44_selected_as_sent_partial F I init ops history req v before rest h router plain hv hops ?_ ?_
  · unfold SameHost at hsame; rw [hsame, hbare]
  · intro e he hc
    exact hfirst e he (by unfold SameHost; rw [hbare]; exact hc)

/-- The request is passed to the last router registered as the default one, or refused if there is none. -/
private theorem toDefault (F : Fold) (I : RouterImpl m ρ) (init : α → ρ) (ops : List (Op α)) (history : List Event)
    (req : Request) (code : Status.Code)
    (hc : (getRouter F (vrouter F I init ops history) req.Headers).1 = orDefault (vrouter F I init ops history) code) :
    match (defaultsRegistered ops).getLast? with
    | some router => ∃ past, ServedBy F I (vrouter F I init ops history) req (after I (init router) past) ∧
        (PlainHistory history ops →
          past.map Event.forget = (history.filter (fun e => target ops e.req = .default)).map Event.forget)
    | none => RefusedWith F I (vrouter F I init ops history) req code := by
  have hi := (routers_eq F I init ops history).2
  generalize hr : vrouter F I init ops history = r at hi hc ⊢
  cases hdef : (defaultsRegistered ops).getLast? with
  | none =>
    rw [hdef] at hi
    have : orDefault r code = .refuse code := by unfold orDefault; rw [hi]; rfl
    rw [this] at hc
    obtain ⟨hs, hp, e1, e2⟩ := dispatched F I r req _ hc
    exact ⟨hs, hp, e1, e2⟩
  | some router =>
    rw [hdef] at hi
    have hi' : r.defaultRouter = some (after I (init router) (past F init ops history .default)) := hi
    have : orDefault r code = .default := by unfold orDefault; rw [hi']
    rw [this] at hc
    obtain ⟨hs, hp, e1, e2⟩ := dispatched F I r req _ hc
    refine ⟨past F init ops history .default, ⟨hs, hp, ?_, ?_⟩, fun hp => past_default F init ops history hp hdef⟩
    · show (onRequest F I r req).1 = _
      rw [e1]; simp only [dispatch, hi']
    · intro err
      show (onError F I r req err).1 = _
      rw [e2 err]; simp only [dispatch, hi']

omit [Monad m] in
private theorem find_lt (F : Fold) (v : Bytes) : ∀ (rs : List (Bytes × ρ)) (i j : Nat), find F v i rs = some j → j < i + rs.length := by
  intro rs
  induction rs with
  | nil => intro i j h; cases h
  | cons r rs ih =>
    intro i j h
    rw [find] at h
    rw [List.length_cons]
    split at h
    · cases h; omega
    · have := ih _ _ h
      omega

/-- Whatever a request (or an error) is, it is refused, or passed to one of the routers which were registered. -/
theorem served_any (F : Fold) (I : RouterImpl m ρ) (init : α → ρ) (ops : List (Op α)) (history : List Event) (req : Request) :
    (∃ code, (code = 400 ∨ code = 421) ∧ RefusedWith F I (vrouter F I init ops history) req code) ∨
    ∃ a past, (a ∈ (hostsRegistered ops).map (·.2) ∨ a ∈ defaultsRegistered ops) ∧
      ServedBy F I (vrouter F I init ops history) req (after I (init a) past) := by
  obtain ⟨hi, hdef⟩ := routers_eq F I init ops history
  generalize hr : vrouter F I init ops history = r at hi hdef ⊢
  have fallback : ∀ code : Status.Code, code = 400 ∨ code = 421 → (getRouter F r req.Headers).1 = orDefault r code →
      (∃ code, (code = 400 ∨ code = 421) ∧ RefusedWith F I r req code) ∨ ∃ a past, (a ∈ (hostsRegistered ops).map (·.2) ∨ a ∈ defaultsRegistered ops) ∧
        ServedBy F I r req (after I (init a) past) := by
    intro code hcode hc
    obtain ⟨hs, hp, e1, e2⟩ := dispatched F I r req _ hc
    cases hd : (defaultsRegistered ops).getLast? with
    | none =>
      have : r.defaultRouter = none := by rw [hdef, hd]; rfl
      simp only [orDefault, this, dispatch] at e1 e2
      exact .inl ⟨code, hcode, hs, hp, e1, e2⟩
    | some a =>
      have : r.defaultRouter = some (after I (init a) (past F init ops history .default)) := by rw [hdef, hd]; rfl
      simp only [orDefault, this, dispatch] at e1 e2
      refine .inr ⟨a, past F init ops history .default, .inr (List.mem_of_getLast? hd), hs, hp, ?_, ?_⟩
      · show (onRequest F I r req).1 = _
        rw [e1]
      · intro err
        show (onError F I r req err).1 = _
        rw [e2 err]
  match hv : (req.Headers.values F b!"host").1 with
  | [] => exact fallback Status.BadRequest (.inl rfl) (by unfold getRouter; simp only [hv])
  | [v] =>
    have hc := getRouter_one F r req v hv
    cases hf : find F v 0 r.routers with
    | none => rw [hf] at hc; exact fallback Status.MisdirectedRequest (.inr rfl) hc
    | some i =>
      rw [hf] at hc
      have hlt := find_lt F v _ _ _ hf
      rw [Nat.zero_add, hi, List.length_mapIdx] at hlt
      have hx : r.routers[i]? = some (bare ((hostsRegistered ops)[i]).1,
          after I (init ((hostsRegistered ops)[i]).2) (past F init ops history (.host i))) := by
        rw [hi, List.getElem?_mapIdx, List.getElem?_eq_getElem hlt]; rfl
      replace hc : (getRouter F r req.Headers).1 = .host i := hc
      obtain ⟨hs, hp, e1, e2⟩ := dispatched F I r req _ hc
      simp only [dispatch, hx] at e1 e2
      refine .inr ⟨((hostsRegistered ops)[i]).2, past F init ops history (.host i),
        .inl (List.mem_map_of_mem (List.getElem_mem hlt)), hs, hp, ?_, ?_⟩
      · show (onRequest F I r req).1 = _
        rw [e1]
      · intro err
        show (onError F I r req err).1 = _
        rw [e2 err]
  | v :: w :: rest =>
    have hc : (getRouter F r req.Headers).1 = .refuse Status.BadRequest := by unfold getRouter; simp only [hv]
    obtain ⟨hs, hp, e1, e2⟩ := dispatched F I r req _ hc
    exact .inl ⟨_, .inl rfl, hs, hp, e1, e2⟩

/-- **C44 (part).** A request with one `Host`, whatever its value, is served by the default router or refused with 421 if the
value as it was sent is, up to letter case, no registered host with its own default port and `www.` taken off. -/
theorem C44_unknown_as_sent_partial (F : Fold) (I : RouterImpl m ρ) (init : α → ρ) (ops : List (Op α)) (history : List Event)
    (req : Request) (v : Bytes) (plain : Plain req ops) (hv : hostsOf req = [v])
    (hnone : ∀ e ∈ hostsRegistered ops, lower (bare e.1) ≠ lower v) :
    match (defaultsRegistered ops).getLast? with
    | some router => ∃ past, ServedBy F I (vrouter F I init ops history) req (after I (init router) past) ∧
        (PlainHistory history ops →
          past.map Event.forget = (history.filter (fun e => target ops e.req = .default)).map Event.forget)
    | none => RefusedWith F I (vrouter F I init ops history) req 421 := by
  have hd := domains F I init ops history
  have hvals : (req.Headers.values F b!"host").1 = [v] := by
    rw [hosts_eq F req (fun p hp c hc => hostChar c (plain.names p hp c hc)), hv]
  have hvc : ∀ c ∈ v, HostChar c := plain.hosts v (by simp [hv])
  have hchoice := getRouter_one F (vrouter F I init ops history) req v hvals
  rw [find_none] at hchoice
  · exact toDefault F I init ops history req 421 hchoice
  · intro e he
    have : e.1 ∈ (vrouter F I init ops history).routers.map Prod.fst := List.mem_map_of_mem he
    rw [hd] at this
    obtain ⟨e', he', hee⟩ := List.mem_map.1 this
    have hee' : bare e'.1 = e.1 := hee
    have hne := hnone e' he'
    rw [Ne, ← lower_eq F _ _ (fun c hc => plain.registered e' he' c (bare_sub _ c hc)) hvc, hee'] at hne
    simpa using hne

/-- **C44 (part).** A request with one `Host` which no router is registered for is served by the default router, or
refused with 421. -/
theorem C44_unknown_partial (F : Fold) (I : RouterImpl m ρ) (init : α → ρ) (ops : List (Op α)) (history : List Event)
    (req : Request) (v : Bytes) (plain : Plain req ops) (hv : hostsOf req = [v]) (hbare : bare v = v)
    (hnone : ∀ e ∈ hostsRegistered ops, ¬ SameHost e.1 v) :
    match (defaultsRegistered ops).getLast? with
    | some router => ∃ past, ServedBy F I (vrouter F I init ops history) req (after I (init router) past) ∧
        (PlainHistory history ops →
          past.map Event.forget = (history.filter (fun e => target ops e.req = .default)).map Event.forget)
    | none => RefusedWith F I (vrouter F I init ops history) req 421 := by
  refine C44_unknown_as_sent_partial F I init ops history req v plain hv ?_
  intro e he hc
  exact hnone e he (by unfold SameHost; rw [hbare]; exact hc)

/-- **C44.** A request without `Host` is served by the default router, or refused with 400. -/
theorem C44_missing (F : Fold) (I : RouterImpl m ρ) (init : α → ρ) (ops : List (Op α)) (history : List Event)
    (req : Request) (names : ∀ p ∈ req.Headers.pairs, ∀ c ∈ p.Key, HostChar c) (hv : hostsOf req = []) :
    match (defaultsRegistered ops).getLast? with
    | some router => ∃ past, ServedBy F I (vrouter F I init ops history) req (after I (init router) past) ∧
        (PlainHistory history ops →
          past.map Event.forget = (history.filter (fun e => target ops e.req = .default)).map Event.forget)
    | none => RefusedWith F I (vrouter F I init ops history) req 400 := by
  have hvals : (req.Headers.values F b!"host").1 = [] := by
    rw [hosts_eq F req (fun p hp c hc => hostChar c (names p hp c hc)), hv]
  apply toDefault F I init ops history req 400
  unfold getRouter; simp only [hvals]

/-- **C44.** A request with several `Host` headers is refused with 400, whatever is registered. -/
theorem C44_repeated (F : Fold) (I : RouterImpl m ρ) (init : α → ρ) (ops : List (Op α)) (history : List Event)
    (req : Request) (names : ∀ p ∈ req.Headers.pairs, ∀ c ∈ p.Key, HostChar c) (hv : 2 ≤ (hostsOf req).length) :
    RefusedWith F I (vrouter F I init ops history) req 400 := by
  have hvals : (req.Headers.values F b!"host").1 = hostsOf req :=
    hosts_eq F req (fun p hp c hc => hostChar c (names p hp c hc))
  have hc : (getRouter F (vrouter F I init ops history) req.Headers).1 = .refuse 400 := by
    unfold getRouter
    simp only [hvals]
    match hh : hostsOf req, hv with
    | a :: b :: rest, _ => rfl
  obtain ⟨hs, hp, e1, e2⟩ := dispatched F I _ req _ hc
  exact ⟨hs, hp, e1, e2⟩

end

/-! ### Samples and violations -/

private def sampleRouter : RouterImpl Id Bytes where
  onRequest name req := ((Fields.new.bytes name, req), name)
  onError name req _ := ((Fields.new.bytes name, req), name)

private def sampleOps : List (Op Bytes) :=
  [.host b!"www.Example.com:80" b!"A", .host b!"0.0.0.0:8080" b!"D", .host b!"example.com:8080" b!"B"]

private def sampleReq (hosts : List Bytes) : Request := { Headers := { pairs := hosts.map (fun h => ⟨b!"Host", h⟩) } }

/-- The answer of the sample router (after one other request) to a request with these hosts. -/
private def sampleAnswer (hosts : List Bytes) : Nat × Bytes :=
  let r := vrouter Fold.or20 sampleRouter id sampleOps [.request (sampleReq [b!"x"])]
  let f : Fields := (onRequest Fold.or20 sampleRouter r (sampleReq hosts)).1.1
  (f.Code, f.Body)

example : sampleAnswer [b!"EXAMPLE.com"] = (200, b!"A") ∧ sampleAnswer [b!"example.com:8080"] = (200, b!"B") ∧
    sampleAnswer [b!"other.org"] = (200, b!"D") ∧ sampleAnswer [] = (200, b!"D") ∧
    sampleAnswer [b!"example.com", b!"example.com"] = (400, []) := by decide +kernel

example : Plain (sampleReq [b!"EXAMPLE.com"]) sampleOps ∧ hostsOf (sampleReq [b!"EXAMPLE.com"]) = [b!"EXAMPLE.com"] ∧
    bare b!"EXAMPLE.com" = b!"EXAMPLE.com" ∧
    hostsRegistered sampleOps = [] ++ (b!"www.Example.com:80", b!"A") :: [(b!"example.com:8080", b!"B")] ∧
    SameHost b!"www.Example.com:80" b!"EXAMPLE.com" := by
  refine ⟨⟨?_, ?_, ?_⟩, by decide +kernel, by decide +kernel, by decide +kernel, by unfold SameHost; decide +kernel⟩
  all_goals
    unfold HostChar
    decide +kernel

/-- The same of the two theorems about values as they were sent: one with a port is found as it is, and one with `www.` is that of no router. -/
example : let req := sampleReq [b!"EXAMPLE.com:8080"]
    Plain req sampleOps ∧ hostsOf req = [b!"EXAMPLE.com:8080"] ∧
    hostsRegistered sampleOps = [(b!"www.Example.com:80", b!"A")] ++ (b!"example.com:8080", b!"B") :: [] ∧
    lower (bare b!"example.com:8080") = lower b!"EXAMPLE.com:8080" ∧ (∀ e ∈ [(b!"www.Example.com:80", b!"A")], lower (bare e.1) ≠ lower b!"EXAMPLE.com:8080") ∧
    sampleAnswer [b!"EXAMPLE.com:8080"] = (200, b!"B") := by
  refine ⟨⟨?_, ?_, ?_⟩, by decide +kernel, by decide +kernel, by decide +kernel, by decide +kernel, by decide +kernel⟩
  all_goals
    unfold HostChar
    decide +kernel

example : let req := sampleReq [b!"www.Example.com:80"]
    Plain req sampleOps ∧ hostsOf req = [b!"www.Example.com:80"] ∧ (∀ e ∈ hostsRegistered sampleOps, lower (bare e.1) ≠ lower b!"www.Example.com:80") ∧
    sampleAnswer [b!"www.Example.com:80"] = (200, b!"D") := by
  refine ⟨⟨?_, ?_, ?_⟩, by decide +kernel, by decide +kernel, by decide +kernel⟩
  all_goals
    unfold HostChar
    decide +kernel

/-- What the router number 0 gets of a history. -/
example : [sampleReq [b!"EXAMPLE.com"], sampleReq [b!"x"], sampleReq [b!"example.com:8080"], sampleReq [], sampleReq [b!"example.com"]].map
    (target sampleOps) = [.router 0, .default, .router 1, .default, .router 0] := by decide +kernel

/-- **C44 (violation).** The router registered for `www.example.com` does not get the requests for
`www.example.com`: the registered name is stored without `www.`, the one of the request is compared as it is. -/
theorem C44_www_violation :
    let r := vrouter Fold.or20 sampleRouter id [.host b!"www.example.com" b!"A"] []
    (onRequest Fold.or20 sampleRouter r (sampleReq [b!"www.example.com"])).1.1.Code = 421 ∧
    (onRequest Fold.or20 sampleRouter r (sampleReq [b!"example.com"])).1.1.Code = 200 ∧
    SameHost b!"www.example.com" b!"example.com" := by
  unfold SameHost
  decide +kernel

/-- **C44 (violation).** The same with a default port. -/
theorem C44_port_violation :
    let r := vrouter Fold.or20 sampleRouter id [.host b!"example.com:80" b!"A"] []
    (onRequest Fold.or20 sampleRouter r (sampleReq [b!"example.com:80"])).1.1.Code = 421 ∧
    SameHost b!"example.com:80" b!"example.com:80" := by
  unfold SameHost
  decide +kernel

end Indigo
