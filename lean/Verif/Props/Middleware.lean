/-
C45: the HTTPSOnly middleware. C68: the other bundled middlewares.
-/
import Verif.Model.Middleware
import Verif.Proofs.Virtual

namespace Indigo
open Indigo.Spec.Virtual Indigo.Middleware

/-- The part of a host before the first colon. -/
private def hostName (h : Bytes) : Bytes := h.takeWhile (fun c => c != 58)

/-- Where HTTPSOnly redirects to: the configured host, otherwise the first `Host` of the request, without its port. -/
def redirectHost (params : HTTPOnlyParams) (req : Request) : Bytes :=
  if params.RedirectTo = [] then hostName ((hostsOf req).headD []) else params.RedirectTo

private theorem removePort_eq (s : Bytes) : removePort s = hostName s := by
  unfold removePort hostName
  induction s with
  | nil => rfl
  | cons c s ih =>
    unfold cut
    rw [List.takeWhile_cons]
    by_cases hc : c = COLON
    · subst hc; rfl
    · rw [if_neg hc]
      have : (c != 58) = true := by simpa [COLON] using hc
      rw [this]
      cases hcut : cut COLON s with
      | none => rw [hcut] at ih; simp only at ih ⊢; rw [← ih]; rfl
      | some r =>
        obtain ⟨a, b⟩ := r
        rw [hcut] at ih; simp only at ih ⊢; rw [← ih]; rfl

private theorem value_eq (F : Fold) (req : Request)
    (names : ∀ p ∈ req.Headers.pairs, ∀ c ∈ p.Key, HostChar c) :
    req.Headers.value F b!"host" = (hostsOf req).headD [] := by
  have hh : ∀ c, HostChar c → isPlainTok c = true := by
    intro c h
    unfold HostChar at h
    unfold isPlainTok
    simp only [Bool.or_eq_true, Bool.and_eq_true, decide_eq_true_eq, beq_iff_eq]
    rcases h with h | h | h | h | h | h <;> simp [h]
  unfold Storage.value Storage.valueOr Storage.get hostsOf
  generalize req.Headers.pairs = ps at names
  have key : Storage.getLoop F b!"host" ps =
      ((ps.filter (fun p => lower p.Key == b!"host")).map (·.Value)).head? := by
    induction ps with
    | nil => rfl
    | cons p ps ih =>
      have hp : F.eq p.Key b!"host" = (lower p.Key == b!"host") := by
        rw [Bool.eq_iff_iff, F.eq_iff_lower (fun c hc => hh c (names p (by simp) c hc)) (by decide)]
        have : lower b!"host" = b!"host" := by decide
        rw [this, beq_iff_eq]
      unfold Storage.getLoop
      rw [F.eq_comm, hp, ih (fun q hq => names q (by simp [hq])), List.filter_cons]
      by_cases h : (lower p.Key == b!"host") = true
      · simp [h]
      · simp [h]
  rw [key]
  cases (ps.filter (fun p => lower p.Key == b!"host")).map (·.Value) <;> rfl

section
variable {m : Type → Type} [Monad m]

/-- **C45 (part).** A request of an unencrypted connection never reaches what is behind HTTPSOnly: the answer is the
same whatever that is. It is a redirection to the https address of the same path (before aliases were applied) on the
configured host or on the one of the `Host` header, or 400 if there is none. Missing: what the connection is said to be
by the server (see `C45_second_request_violation` and `C48_…`). -/
theorem C45_plain_partial (F : Fold) (params : HTTPOnlyParams) (next : Router.Handler m) (req : Request)
    (names : ∀ p ∈ req.Headers.pairs, ∀ c ∈ p.Key, HostChar c) (hplain : req.Env.Encryption = 0) :
    ∃ f : Fields, httpsOnly F [params] next req = pure (f, req) ∧
      (∀ next', httpsOnly F [params] next' req = httpsOnly F [params] next req) ∧
      if redirectHost params req = [] then f.Code = 400 ∧ f.Headers = []
      else f.Code = 301 ∧ f.Headers = [⟨b!"Location", b!"https://" ++ redirectHost params req ++ b!":" ++ params.Port ++
        (if req.Env.AliasFrom = [] then req.Path else req.Env.AliasFrom)⟩] := by
  have hnext : ∀ next' : Router.Handler m, httpsOnly F [params] next' req = httpsOnly F [params] next req := by
    intro next'
    unfold httpsOnly
    simp only [hplain, Plain, ne_eq, not_true_eq_false, if_false]
  have hloc : ∀ v, ((Fields.new.code 301).header F b!"Location" [v]) =
      some { Fields.new.code 301 with Headers := [⟨b!"Location", v⟩] } := by
    intro v
    unfold Fields.header
    have h1 : F.eq b!"Location" b!"content-type" = false := by
      rw [Bool.eq_false_iff, Ne, F.eq_iff_lower (by decide) (by decide)]; decide
    have h2 : F.eq b!"Location" b!"transfer-encoding" = false := by
      rw [Bool.eq_false_iff, Ne, F.eq_iff_lower (by decide) (by decide)]; decide
    rw [if_neg (by simp [h1]), if_neg (by simp [h2])]
    rfl
  have hval := value_eq F req names
  by_cases hr : params.RedirectTo = []
  · have hh : redirectHost params req = removePort (req.Headers.value F b!"host") := by
      unfold redirectHost; rw [if_pos hr, hval, removePort_eq]
    by_cases he : redirectHost params req = []
    · refine ⟨(Fields.new.code 400).bytes b!"no Host header", ?_, hnext, ?_⟩
      · have : (removePort (req.Headers.value F b!"host")).length = 0 := by rw [← hh, he]; rfl
        unfold httpsOnly
        simp [hplain, Plain, Middleware.optional, hr, this]
      · rw [if_pos he]; exact ⟨rfl, rfl⟩
    · refine ⟨{ Fields.new.code 301 with Headers := [⟨b!"Location", b!"https://" ++ redirectHost params req ++ b!":" ++ params.Port ++
          (if req.Env.AliasFrom = [] then req.Path else req.Env.AliasFrom)⟩] }, ?_, hnext, ?_⟩
      · have h0 : (removePort (req.Headers.value F b!"host")) ≠ [] := by rw [← hh]; exact he
        unfold httpsOnly
        simp only [hplain, Plain, ne_eq, not_true_eq_false, if_false, Middleware.optional, List.headD_cons, hr, List.length_nil,
          if_true, true_and, List.length_eq_zero_iff, h0]
        rw [hloc]
        simp only [Option.getD_some, hh]
        by_cases ha : req.Env.AliasFrom = []
        · simp [ha]
        · have : req.Env.AliasFrom.length > 0 := List.length_pos_iff.2 ha
          rw [if_pos this]; simp [ha]
      · rw [if_neg he]; exact ⟨rfl, rfl⟩
  · have hh : redirectHost params req = params.RedirectTo := by unfold redirectHost; rw [if_neg hr]
    have he : redirectHost params req ≠ [] := by rw [hh]; exact hr
    have h0 : params.RedirectTo.length ≠ 0 := by simpa using hr
    refine ⟨{ Fields.new.code 301 with Headers := [⟨b!"Location", b!"https://" ++ redirectHost params req ++ b!":" ++ params.Port ++
          (if req.Env.AliasFrom = [] then req.Path else req.Env.AliasFrom)⟩] }, ?_, hnext, ?_⟩
    · unfold httpsOnly
      simp only [hplain, Plain, ne_eq, not_true_eq_false, if_false, Middleware.optional, List.headD_cons, h0, false_and]
      rw [hloc]
      simp only [Option.getD_some, hh]
      by_cases ha : req.Env.AliasFrom = []
      · simp [ha]
      · have : req.Env.AliasFrom.length > 0 := List.length_pos_iff.2 ha
        rw [if_pos this]; simp [ha]
    · rw [if_neg he]; exact ⟨rfl, rfl⟩

/-- **C45 (part).** A request of an encrypted connection is passed on unchanged. -/
theorem C45_encrypted_partial (F : Fold) (params : List HTTPOnlyParams) (next : Router.Handler m) (req : Request)
    (henc : req.Env.Encryption ≠ 0) : httpsOnly F params next req = next req := by
  unfold httpsOnly
  simp only [Plain, ne_eq, henc, not_false_eq_true, if_true]

/-- **C68.** `Redirect(from, to)` answers requests for exactly that path with 307 and the location, without calling what
is behind it, and leaves all other requests alone. -/
theorem C68_redirect (F : Fold) (src dst : Bytes) (next : Router.Handler m) (req : Request) :
    (req.Path ≠ src → redirect F src dst next req = next req) ∧
    (req.Path = src → redirect F src dst next req =
      pure ({ Fields.new with Code := 307, Headers := [⟨b!"Location", dst⟩] }, req)) := by
  constructor
  · intro h; unfold redirect; rw [if_pos h]
  · intro h
    unfold redirect
    rw [if_neg (by simp [h])]
    have h1 : F.eq b!"Location" b!"content-type" = false := by
      rw [Bool.eq_false_iff, Ne, F.eq_iff_lower (by decide) (by decide)]; decide
    have h2 : F.eq b!"Location" b!"transfer-encoding" = false := by
      rw [Bool.eq_false_iff, Ne, F.eq_iff_lower (by decide) (by decide)]; decide
    simp only [Fields.header, h1, h2]
    rfl

theorem joinSp_eq : ∀ parts : List Bytes, joinSp parts = b!" ".intercalate parts
  | [] => rfl
  | [h] => by simp [joinSp, List.intercalate]
  | h :: h' :: hs => by
    have := joinSp_eq (h' :: hs)
    simp only [joinSp, this, List.intercalate, List.intersperse, List.flatten_cons]
    rfl

/-- **C68.** `ServerHeader(parts...)` adds one header `Server` to the response of what is behind it, with the parts
joined by spaces or `indigo`, and changes nothing else. -/
theorem C68_server_header [LawfulMonad m] (F : Fold) (parts : List Bytes) (next : Router.Handler m) (req : Request) :
    ∃ value, (value = if b!" ".intercalate parts = [] then b!"indigo" else b!" ".intercalate parts) ∧
      serverHeader F parts next req =
        (fun r : Fields × Request => ({ r.1 with Headers := r.1.Headers ++ [⟨b!"Server", value⟩] }, r.2)) <$> next req := by
  refine ⟨_, rfl, ?_⟩
  rw [← joinSp_eq]
  have h1 : F.eq b!"Server" b!"content-type" = false := by
    rw [Bool.eq_false_iff, Ne, F.eq_iff_lower (by decide) (by decide)]; decide
  have h2 : F.eq b!"Server" b!"transfer-encoding" = false := by
    rw [Bool.eq_false_iff, Ne, F.eq_iff_lower (by decide) (by decide)]; decide
  unfold serverHeader
  simp only [Fields.header, h1, h2, List.length_eq_zero_iff]
  rw [map_eq_pure_bind]
  rfl

omit [Monad m] in
/-- **C68.** `CustomContext(ctx)` gives what is behind it the request with that context and otherwise unchanged. -/
theorem C68_custom_context (ctx : List Bytes) (next : Router.Handler m) (req : Request) :
    customContext ctx next req = next { req with Ctx := ctx } := rfl

end

private def sampleNext : Router.Handler Id := fun req => (Fields.new.bytes b!"secret", req)

private def sampleReq (enc : Nat) (hosts : List Bytes) : Request :=
  { Path := b!"/new", Headers := { pairs := hosts.map (fun h => ⟨b!"HOST", h⟩) },
    Env := { Encryption := enc, AliasFrom := b!"/old" } }

private def show_ (r : Fields × Request) : Nat × Bytes × List Pair := (r.1.Code, r.1.Body, r.1.Headers)

example : show_ (httpsOnly (m := Id) Fold.or20 [{ Port := b!"8443" }] sampleNext (sampleReq 0 [b!"example.com:80"])) =
      (301, [], [⟨b!"Location", b!"https://example.com:8443/old"⟩]) ∧
    show_ (httpsOnly (m := Id) Fold.or20 [] sampleNext (sampleReq 0 [])) = (400, b!"no Host header", []) ∧
    show_ (httpsOnly (m := Id) Fold.or20 [] sampleNext (sampleReq 1 [])) = (200, b!"secret", []) := by decide +kernel

example : show_ (serverHeader (m := Id) Fold.or20 [b!"a", b!"b"] sampleNext {}) = (200, b!"secret", [⟨b!"Server", b!"a b"⟩]) := by
  decide +kernel

/-- **C45 (violation).** A numeric IPv6 `Host` is cut at its first colon: the redirection leads to no address at all. -/
theorem C45_ipv6_violation :
    show_ (httpsOnly (m := Id) Fold.or20 [] sampleNext (sampleReq 0 [b!"[2001:db8::1]:80"])) =
      (301, [], [⟨b!"Location", b!"https://[2001:/old"⟩]) := by decide +kernel

end Indigo
