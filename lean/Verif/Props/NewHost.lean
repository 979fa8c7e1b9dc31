/-
C118: a new virtual host.
-/
import Verif.Props.Virtual
import Verif.Spec.Additions
import Verif.Proofs.Concurrent
import Verif.Props.Hosts

namespace Indigo.Props
open Indigo.Spec Indigo.Spec.Virtual Indigo.Virtual

section
variable {m : Type → Type} [Monad m] {α ρ : Type}

omit [Monad m] in
private theorem find_snoc (F : Fold) (v d : Bytes) (x : ρ) : ∀ (rs : List (Bytes × ρ)) (i : Nat),
    find F v i (rs ++ [(d, x)]) = (find F v i rs).or (if F.eq d v then some (i + rs.length) else none)
  | [], i => by simp [find]
  | r :: rs, i => by
    rw [List.cons_append, find, find]
    split
    · rfl
    · rw [find_snoc F v d x rs (i + 1)]
      congr 2
      rw [List.length_cons]
      congr 1
      omega

omit [Monad m] in
private theorem find_some (F : Fold) (v : Bytes) : ∀ (rs : List (Bytes × ρ)) (i : Nat), (find F v i rs).isSome = rs.any (fun r => F.eq r.1 v)
  | [], _ => rfl
  | r :: rs, i => by
    rw [find, List.any_cons]
    by_cases h : F.eq r.1 v = true
    · simp [h]
    · rw [if_neg h, find_some F v rs (i + 1)]
      simp [h]

omit [Monad m] in
private theorem find_bound (F : Fold) (v : Bytes) : ∀ (rs : List (Bytes × ρ)) (i j : Nat), find F v i rs = some j → j < i + rs.length
  | [], _, _, h => by cases h
  | r :: rs, i, j, h => by
    rw [find] at h
    split at h
    · cases h; simp
    · have := find_bound F v rs (i + 1) j h
      simp only [List.length_cons]
      omega

private theorem values_filter (F : Fold) (s : Storage) : (s.values F b!"host").1 = (s.pairs.filter (fun p => F.eq p.Key b!"host")).map (·.Value) := by
  have key : ∀ (ps : List Pair) acc, Storage.valuesLoop F b!"host" ps acc = acc ++ (ps.filter (fun p => F.eq p.Key b!"host")).map (·.Value) := by
    intro ps
    induction ps with
    | nil => intro acc; simp [Storage.valuesLoop]
    | cons p ps ih =>
      intro acc
      rw [Storage.valuesLoop, ih]
      by_cases h : F.eq p.Key b!"host" = true <;> simp [h]
  exact (key s.pairs []).trans (by simp)

/-- The second virtual router is the first one and one more host. -/
private def Extends (d : Bytes) (r r' : Runtime ρ) : Prop := ∃ x, r'.routers = r.routers ++ [(d, x)] ∧ r'.defaultRouter = r.defaultRouter

omit [Monad m] in
private theorem getRouter_snd (F : Fold) (r : Runtime ρ) (h : Storage) : (getRouter F r h).2 = (h.values F b!"host").2 := rfl

omit [Monad m] in
private theorem getRouter_fst (F : Fold) (r : Runtime ρ) (h : Storage) : (getRouter F r h).1 = match (h.pairs.filter (fun p => F.eq p.Key b!"host")).map (·.Value) with
   | [] => orDefault r Status.BadRequest
   | [host] =>
     match find F host 0 r.routers with
     | some i => .host i
     | none => orDefault r Status.MisdirectedRequest
   | _ => .refuse Status.BadRequest := by
  rw [← values_filter]; rfl

/-- Requests which are not for the new host. -/
private theorem other_host (F : Fold) {d : Bytes} {r r' : Runtime ρ} (ext : Extends d r r') (req request : Request) (call : ρ → m (Fields × Request) × ρ)
    (other : (match (req.Headers.pairs.filter (fun p => F.eq p.Key b!"host")).map (·.Value) with
      | [v] => F.eq d v && !r.routers.any (fun e => F.eq e.1 v)
      | _ => false) = false) :
    (dispatch r' request call (getRouter F r' req.Headers).1).1 = (dispatch r request call (getRouter F r req.Headers).1).1 ∧
    Extends d (dispatch r request call (getRouter F r req.Headers).1).2 (dispatch r' request call (getRouter F r' req.Headers).1).2 := by
  obtain ⟨x, h1, h2⟩ := ext
  have hdef : ∀ code, orDefault r' code = orDefault r code := by intro code; rw [orDefault, orDefault, h2]
  have hc : (getRouter F r' req.Headers).1 = (getRouter F r req.Headers).1 ∧ ∀ i, (getRouter F r req.Headers).1 = .host i → i < r.routers.length := by
    have hd' : ∀ code i, orDefault r code ≠ .host i := by
      intro code i; rw [orDefault]; split <;> simp
    rw [getRouter_fst, getRouter_fst]
    split
    · exact ⟨hdef _, fun i h => absurd h (hd' _ i)⟩
    · rename_i v hv
      rw [hv] at other
      simp only at other
      rw [h1, find_snoc]
      cases hf : find F v 0 r.routers with
      | some i =>
        refine ⟨rfl, ?_⟩
        rintro j ⟨⟩
        have := find_bound F v _ _ _ hf
        omega
      | none =>
        have hn : r.routers.any (fun e => F.eq e.1 v) = false := by rw [← find_some F v r.routers 0, hf]; rfl
        rw [hn] at other
        have : F.eq d v = false := by simpa using other
        rw [this]
        exact ⟨hdef _, fun i h => absurd h (hd' _ i)⟩
    · exact ⟨rfl, by simp⟩
  rw [hc.1]
  cases hg : (getRouter F r req.Headers).1 with
  | host i =>
    have hi := hc.2 i hg
    simp only [dispatch]
    rw [h1, List.getElem?_append_left hi, List.getElem?_eq_getElem hi]
    refine ⟨rfl, x, ?_, h2⟩
    show (r.routers ++ [(d, x)]).set i _ = r.routers.set i _ ++ _
    rw [List.set_append_left _ _ hi]
  | default =>
    simp only [dispatch]
    rw [h2]
    cases r.defaultRouter with
    | none => exact ⟨rfl, x, h1, h2⟩
    | some y => exact ⟨rfl, x, h1, rfl⟩
  | refuse code => exact ⟨rfl, x, h1, h2⟩

/-- Requests which are for the new host leave the others alone. -/
private theorem new_host (F : Fold) {d : Bytes} {r r' : Runtime ρ} (ext : Extends d r r') (req request : Request) (call : ρ → m (Fields × Request) × ρ)
    (new : (match (req.Headers.pairs.filter (fun p => F.eq p.Key b!"host")).map (·.Value) with
      | [v] => F.eq d v && !r.routers.any (fun e => F.eq e.1 v)
      | _ => false) = true) :
    Extends d r (dispatch r' request call (getRouter F r' req.Headers).1).2 := by
  obtain ⟨x, h1, h2⟩ := ext
  have hg : (getRouter F r' req.Headers).1 = .host r.routers.length := by
    rw [getRouter_fst]
    split at new
    · rename_i v hv
      rw [Bool.and_eq_true] at new
      have hn : find F v 0 r.routers = none := by
        rw [← Option.not_isSome_iff_eq_none, find_some F v r.routers 0]
        simpa using new.2
      rw [hv]
      simp only
      rw [h1, find_snoc, hn, new.1]
      simp
    · cases new
  rw [hg]
  simp only [dispatch]
  rw [h1, List.getElem?_append_right (Nat.le_refl _), Nat.sub_self]
  refine ⟨(call x).2, ?_, h2⟩
  show (r.routers ++ [(d, x)]).set r.routers.length _ = _
  rw [List.set_append_right _ _ (Nat.le_refl _), Nat.sub_self]
  rfl

omit [Monad m] in
private theorem start_hosts (init : α → ρ) : ∀ ops : List (Op α), initRouter init (build ops) = ⟨(hostsRegistered ops).map (fun e => (Spec.Virtual.bare e.1, init e.2)), (defaultsRegistered ops).getLast?.map init⟩ := by
  intro ops
  obtain ⟨e1, e2⟩ := build_eq ops
  unfold initRouter
  rw [e1, e2]
  simp

omit [Monad m] in
private theorem new_eq (F : Fold) (vops : List (Op α)) (host : Bytes) : ∀ (r : Runtime ρ) (req : Request), r.routers.map Prod.fst = (hostsRegistered vops).map (fun e => Spec.Virtual.bare e.1) →
    (match (req.Headers.pairs.filter (fun p => F.eq p.Key b!"host")).map (·.Value) with
      | [v] => F.eq (Spec.Virtual.bare host) v && !r.routers.any (fun e => F.eq e.1 v)
      | _ => false) = forNewHost F vops host req := by
  intro r req hd
  have hany : ∀ v, r.routers.any (fun e => F.eq e.1 v) = (hostsRegistered vops).any (fun e => F.eq (Spec.Virtual.bare e.1) v) := by
    intro v
    have h1 : r.routers.any (fun e => F.eq e.1 v) = (r.routers.map Prod.fst).any (fun d => F.eq d v) := by rw [List.any_map]; rfl
    rw [h1, hd, List.any_map]; rfl
  unfold forNewHost forHost
  split
  · rename_i v hv
    simp only [hany, hv]
  · rename_i h
    split
    · rename_i v hv; exact absurd hv (h v)
    · rfl

private theorem domains_same : ∀ (r : Runtime ρ) (request : Request) (call : ρ → m (Fields × Request) × ρ) c, (dispatch r request call c).2.routers.map Prod.fst = r.routers.map Prod.fst := by
  intro r request call c
  cases c with
  | host i =>
    simp only [dispatch]
    cases hi : r.routers[i]? with
    | none => rfl
    | some e =>
      obtain ⟨d, x⟩ := e
      show (r.routers.set i (d, (call x).2)).map Prod.fst = _
      rw [List.map_set]
      refine List.ext_getElem? (fun j => ?_)
      rw [List.getElem?_set]
      split
      · rename_i e
        subst e
        rw [List.getElem?_map, hi]
        have := (List.getElem?_eq_some_iff.1 hi).1
        simp [this]
      · rfl
  | default =>
    simp only [dispatch]
    cases r.defaultRouter <;> rfl
  | refuse code => rfl

/-- **C118.** A virtual host is added, which is not one for all hosts. Then all requests, and errors of requests, which are not for it, or are for a host registered before, are handled exactly as before, whatever requests for the new host come in between. -/
theorem C118_host (F : Fold) (I : RouterImpl m ρ) (init : α → ρ) (vops : List (Op α)) (host : Bytes) (router : α) (certain : ¬ IsAny host) (history : List Event)
    (req : Request) (other : forNewHost F vops host req = false) :
    ((impl F I).onRequest (vrouter F I init (vops ++ [.host host router]) history) req).1 =
      ((impl F I).onRequest (vrouter F I init vops (history.filter (fun e => !forNewHost F vops host e.req))) req).1 ∧
    ∀ err, ((impl F I).onError (vrouter F I init (vops ++ [.host host router]) history) req err).1 =
      ((impl F I).onError (vrouter F I init vops (history.filter (fun e => !forNewHost F vops host e.req))) req err).1 := by
  have state : ∀ (history : List Event) (r r' : Runtime ρ), r.routers.map Prod.fst = (hostsRegistered vops).map (fun e => Spec.Virtual.bare e.1) → Extends (Spec.Virtual.bare host) r r' →
      (after (impl F I) r (history.filter (fun e => !forNewHost F vops host e.req))).routers.map Prod.fst = (hostsRegistered vops).map (fun e => Spec.Virtual.bare e.1) ∧
      Extends (Spec.Virtual.bare host) (after (impl F I) r (history.filter (fun e => !forNewHost F vops host e.req))) (after (impl F I) r' history) := by
    intro history
    induction history with
    | nil => intro r r' h1 h2; exact ⟨h1, h2⟩
    | cons e history ih =>
      intro r r' h1 h2
      rw [List.filter_cons]
      cases hn : forNewHost F vops host e.req with
      | true =>
        simp only [Bool.not_true, Bool.false_eq_true, if_false]
        refine ih r (next (impl F I) r' e) h1 ?_
        cases e with
        | request req => exact new_host F h2 req _ _ ((new_eq F vops host r req h1).trans hn)
        | error req err => exact new_host F h2 req _ _ ((new_eq F vops host r req h1).trans hn)
      | false =>
        simp only [Bool.not_false, if_true]
        refine ih (next (impl F I) r e) (next (impl F I) r' e) ?_ ?_
        · cases e with
          | request req => exact (domains_same _ _ _ _).trans h1
          | error req err => exact (domains_same _ _ _ _).trans h1
        · cases e with
          | request req => exact (other_host F h2 req _ _ ((new_eq F vops host r req h1).trans hn)).2
          | error req err => exact (other_host F h2 req _ _ ((new_eq F vops host r req h1).trans hn)).2
  have h0 : (initRouter init (build vops)).routers.map Prod.fst = (hostsRegistered vops).map (fun e => Spec.Virtual.bare e.1) := by rw [start_hosts]; simp
  have e0 : Extends (Spec.Virtual.bare host) (initRouter init (build vops)) (initRouter init (build (vops ++ [.host host router]))) := by
    refine ⟨init router, ?_, ?_⟩
    · rw [start_hosts, start_hosts]; simp [hostsRegistered, certain]
    · rw [start_hosts, start_hosts]; simp [defaultsRegistered, certain]
  obtain ⟨k1, k2⟩ := state history _ _ h0 e0
  exact ⟨(other_host F k2 req _ _ ((new_eq F vops host _ req k1).trans other)).1, fun err => (other_host F k2 req _ _ ((new_eq F vops host _ req k1).trans other)).1⟩

end

/-! ### On the wire -/

section
open Serve
variable {α σ ρ : Type}

/-- **C118**, on the wire. A virtual host is added to the program of a server, which is not one for all hosts. A client whose requests are for other hosts gets exactly the same bytes as before, the handlers are called in the same way, and the connection ends in the same way. -/
theorem C118_host_wire (E : Setup σ (Runtime ρ)) (I : RouterImpl Act ρ) (virtual : E.router = impl E.F I) (init : α → ρ) (vops : List (Op α)) (host : Bytes) (router : α) (certain : ¬ IsAny host)
    (cfg : Config) (enc : EncToken) (remote : Bytes) (cl : Client)
    (others : ∀ v ∈ (serve E (newConn E.P cfg enc remote (initRouter init (build vops)) cl)).1.visits,
      match v with
      | .request req _ _ _ => forNewHost E.F vops host req = false
      | .error req _ _ _ => forNewHost E.F vops host req = false) :
    (serve E (newConn E.P cfg enc remote (initRouter init (build (vops ++ [.host host router]))) cl)).1.client = (serve E (newConn E.P cfg enc remote (initRouter init (build vops)) cl)).1.client ∧
    (serve E (newConn E.P cfg enc remote (initRouter init (build (vops ++ [.host host router]))) cl)).1.visits = (serve E (newConn E.P cfg enc remote (initRouter init (build vops)) cl)).1.visits ∧
    (serve E (newConn E.P cfg enc remote (initRouter init (build (vops ++ [.host host router]))) cl)).2 = (serve E (newConn E.P cfg enc remote (initRouter init (build vops)) cl)).2 := by
  have h0 : (initRouter init (build vops)).routers.map Prod.fst = (hostsRegistered vops).map (fun e => Spec.Virtual.bare e.1) := by rw [start_hosts]; simp
  have e0 : Extends (Spec.Virtual.bare host) (initRouter init (build vops)) (initRouter init (build (vops ++ [.host host router]))) := by
    refine ⟨init router, ?_, ?_⟩
    · rw [start_hosts, start_hosts]; simp [hostsRegistered, certain]
    · rw [start_hosts, start_hosts]; simp [defaultsRegistered, certain]
  have ag : Agrees E E.router (fun x y => y.routers.map Prod.fst = (hostsRegistered vops).map (fun e => Spec.Virtual.bare e.1) ∧ Extends (Spec.Virtual.bare host) y x)
      (fun v => match v with
        | .request req _ _ _ => forNewHost E.F vops host req = false
        | .error req _ _ _ => forNewHost E.F vops host req = false) := by
    constructor
    · rintro x y req ⟨h1, h2⟩ ⟨_, _, _, hq⟩
      rw [virtual]
      exact (other_host E.F h2 req _ _ ((new_eq E.F vops host y req h1).trans hq)).1
    · rintro x y req e ⟨h1, h2⟩ ⟨_, _, hq⟩
      rw [virtual]
      exact (other_host E.F h2 req _ _ ((new_eq E.F vops host y req h1).trans hq)).1
    · rintro x y req ⟨h1, h2⟩ ⟨_, _, _, hq⟩
      rw [virtual]
      exact ⟨(domains_same _ _ _ _).trans h1, (other_host E.F h2 req _ _ ((new_eq E.F vops host y req h1).trans hq)).2⟩
    · rintro x y req e ⟨h1, h2⟩ ⟨_, _, hq⟩
      rw [virtual]
      exact ⟨(domains_same _ _ _ _).trans h1, (other_host E.F h2 req _ _ ((new_eq E.F vops host y req h1).trans hq)).2⟩
  obtain ⟨k1, k2⟩ := serve_like ag (a := newConn E.P cfg enc remote (initRouter init (build (vops ++ [Virtual.Op.host host router]))) cl) (b := newConn E.P cfg enc remote (initRouter init (build vops)) cl) ⟨⟨h0, e0⟩, rfl⟩ others
  refine ⟨?_, ?_, k1⟩
  · have := congrArg (fun c : Conn σ (Runtime ρ) => c.client) k2.same
    exact this
  · have := congrArg (fun c : Conn σ (Runtime ρ) => c.visits) k2.same
    exact this

end

/-- A request with this host. -/
private def to (host : Bytes) : Request := { Method := .GET, Path := b!"/", Headers := { pairs := [⟨b!"HoST", host⟩] } }

/-- A router which answers with a code and the number of requests it has got. -/
private def counting : RouterImpl Id (Nat × Nat) where
  onRequest x req := ((Fields.new.code (x.1 + x.2), req), (x.1, x.2 + 1))
  onError x req _ := ((Fields.new.code (x.1 + x.2), req), (x.1, x.2 + 1))

private def before : List (Op Nat) := [.host b!"a.org" 200, .default 400]

/-- Requests for the new host, and others; and the answers after three requests, of which one is for the new host, before and after adding it. -/
example : ¬ IsAny b!"www.b.org:80" ∧ forNewHost Fold.ascii before b!"www.b.org:80" (to b!"B.org") = true ∧ forNewHost Fold.ascii before b!"www.b.org:80" (to b!"a.org") = false ∧ forNewHost Fold.ascii before b!"www.b.org:80" (to b!"c.org") = false ∧
    [b!"a.org", b!"c.org"].map (fun h => (((impl Fold.ascii counting).onRequest (vrouter Fold.ascii counting (fun n => (n, 0)) (before ++ [.host b!"www.b.org:80" 300])
      [.request (to b!"a.org"), .request (to b!"b.org"), .request (to b!"c.org")]) (to h)).1 : Fields × Request).1.Code) = [201, 401] ∧
    [b!"a.org", b!"c.org"].map (fun h => (((impl Fold.ascii counting).onRequest (vrouter Fold.ascii counting (fun n => (n, 0)) before
      [.request (to b!"a.org"), .request (to b!"c.org")]) (to h)).1 : Fields × Request).1.Code) = [201, 401] := by
  decide +kernel

/-- The calls of the router for a client of `streetSetup`, with these hosts, which sends this. -/
private def calls (hosts : List (Op Tenant)) (sent : Bytes) : List (Serve.Visit CS) :=
  (Serve.serve streetSetup (Serve.newConn streetSetup.P Config.default 1 b!"1.2.3.4" (initRouter Tenant.router (build hosts)) (arrive [sent]))).1.visits

/-- The code the router answers with. -/
private def codeOf : Serve.Visit CS → Option Nat
  | .request _ _ a _ => a.map (·.1.Code)
  | .error _ _ a _ => a.map (·.1.Code)

/-- On the wire: with `c.net` added to the hosts of `street`, a client which asks for `A.com`, `b.org`, another host, no host and two hosts gets the same answers as without it; one which asks for `C.net` does not. -/
example : ¬ IsAny b!"c.net" ∧ streetSetup.router = impl streetSetup.F (Router.impl Fold.ascii .panic) ∧
    (∀ v ∈ calls street ((visits.map visiting).flatMap Sending.bytes),
      match v with
      | .request req _ _ _ => forNewHost streetSetup.F street b!"c.net" req = false
      | .error req _ _ _ => forNewHost streetSetup.F street b!"c.net" req = false) ∧
    (calls street ((visits.map visiting).flatMap Sending.bytes)).map codeOf = [some 200, some 200, some 421, some 400, some 400, some 400] ∧
    (calls (street ++ [.host b!"c.net" (houseTenant b!"D")]) ((visits.map visiting).flatMap Sending.bytes)).map codeOf = [some 200, some 200, some 421, some 400, some 400, some 400] ∧
    ((calls street (visiting [b!"C.net"]).bytes).map codeOf).head? = some (some 421) ∧
    ((calls (street ++ [.host b!"c.net" (houseTenant b!"D")]) (visiting [b!"C.net"]).bytes).map codeOf).head? = some (some 200) := by
  refine ⟨by decide, rfl, ?_, by decide +kernel, by decide +kernel, by decide +kernel, by decide +kernel⟩
  have : ∀ v ∈ calls street ((visits.map visiting).flatMap Sending.bytes),
      (match v with
      | .request req _ _ _ => forNewHost streetSetup.F street b!"c.net" req
      | .error req _ _ _ => forNewHost streetSetup.F street b!"c.net" req) = false := by decide +kernel
  intro v hv
  have := this v hv
  cases v <;> exact this

end Indigo.Props
