/-
C106: AutoHTTPS - for which names certificates are requested, where they are kept, and whether clients accept them.
-/
import Verif.Spec.Https
import Verif.Props.App
import Verif.Props.Certs

namespace Indigo.Https
open Indigo.App Indigo.Certs

private theorem auto_source (selfSigned : Except GoErr (Bytes × Bytes)) (a : App) (host port : Bytes)
    (domains : List Bytes) (at_ : HostPort host port)
    (name : IsDomain host) (src : Source) (mem : src ∈ (a.autoHTTPS selfSigned (host ++ port) domains).sources) (new : src ∉ a.sources) :
    src = ⟨host ++ port, .autoTLS domains, some (.http TLS)⟩ := by
  rw [C73_autocert_partial selfSigned a host port at_ name domains, List.mem_append] at mem
  rcases mem with h | h
  · exact absurd h new
  · exact List.mem_singleton.1 h

private theorem manager_eq (o : OS) (domains : List Bytes) : ∃ m : Manager,
    autoTLSListener o domains = .ok { manager := some m } ∧ m.acceptTOS = true ∧
      m.hosts = (if domains = [] then none else some domains) ∧
      m.cache = (if mkdirIfNotExists o (cacheDir o) = none then some (cacheDir o) else none) := by
  unfold autoTLSListener
  cases domains with
  | nil => cases h : mkdirIfNotExists o (cacheDir o) <;> exact ⟨_, rfl, by simp [h], by simp [h], by simp [h]⟩
  | cons d ds => cases h : mkdirIfNotExists o (cacheDir o) <;> exact ⟨_, rfl, by simp [h], by simp [h], by simp [h]⟩

/-- **C106 (part).** `AutoHTTPS` for an address whose host is a name other than that of the local host, and for some domains: there is one
listener more. It is for TLS, and whatever the state of the file system, it can be made. Certificates may be requested for the names given, in whatever way
a client writes them, and for no others. -/
theorem C106_names_partial (selfSigned : Except GoErr (Bytes × Bytes)) (a : App) (host port : Bytes)
    (domains : List Bytes) (some' : domains ≠ []) (at_ : HostPort host port)
    (name : IsDomain host) (o : OS) (load : Bytes → Bytes → Except GoErr (Bytes × Bytes)) (ascii : Bytes → Option Bytes) :
    ∃ src m, (a.autoHTTPS selfSigned (host ++ port) domains).sources = a.sources ++ [src] ∧ src.Addr = host ++ port ∧ src.Handler = some (.http TLS) ∧
      configured o load src.Listen = .ok (some { manager := some m }) ∧
      ∀ name, MayRequest ascii m name ↔ ∃ d ∈ domains, ∃ x, ascii d = some x ∧ ascii name = some x := by
  obtain ⟨m, hm, tos, hosts, -⟩ := manager_eq o domains
  rw [if_neg some'] at hosts
  refine ⟨_, m, C73_autocert_partial selfSigned a host port at_ name domains, rfl, rfl, ?_, ?_⟩
  · simp [configured, hm, Except.map]
  · intro name
    constructor
    · rintro ⟨-, x, hx, h⟩
      obtain ⟨d, hd, e⟩ := h domains hosts
      exact ⟨d, hd, x, e, hx⟩
    · rintro ⟨d, hd, x, e, hx⟩
      refine ⟨tos, x, hx, ?_⟩
      intro hs h
      rw [hosts] at h
      cases h
      exact ⟨d, hd, e⟩

/-- **C106** is false without domains: `AutoHTTPS("example.com:443")` requests a certificate for every name which is a name, if a client asks for it; the host in
the address is not considered. -/
theorem C106_any_name_violation (selfSigned : Except GoErr (Bytes × Bytes)) (a : App) (host port : Bytes)
    (at_ : HostPort host port)
    (name : IsDomain host) (o : OS) (load : Bytes → Bytes → Except GoErr (Bytes × Bytes)) (ascii : Bytes → Option Bytes) :
    ∃ src m, (a.autoHTTPS selfSigned (host ++ port)).sources = a.sources ++ [src] ∧
      configured o load src.Listen = .ok (some { manager := some m }) ∧ ∀ name x, ascii name = some x → MayRequest ascii m name := by
  obtain ⟨m, hm, tos, hosts, -⟩ := manager_eq o []
  refine ⟨_, m, C73_autocert_partial selfSigned a host port at_ name [], ?_, ?_⟩
  · simp [configured, hm, Except.map]
  · intro name x hx
    refine ⟨tos, x, hx, ?_⟩
    intro hs h
    rw [hosts] at h
    cases h

/-- **C106** is false of every server with `AutoHTTPS` for names: no authority gives it a certificate, because the check whether the server is the one for a name cannot
pass. The listener is not told the protocol by which the check is done, and does not choose it. -/
theorem C106_no_certificate_violation (selfSigned : Except GoErr (Bytes × Bytes)) (a : App) (host port : Bytes)
    (domains : List Bytes) (at_ : HostPort host port)
    (name : IsDomain host) (o : OS) (load : Bytes → Bytes → Except GoErr (Bytes × Bytes))
    (alpn : List Bytes → List Bytes → Option Bytes) (rfc : FollowsALPN alpn) :
    ∀ src ∈ (a.autoHTTPS selfSigned (host ++ port) domains).sources, src ∉ a.sources →
      ∀ cfg, configured o load src.Listen = .ok (some cfg) → ¬ MayPass alpn cfg := by
  intro src mem new cfg h pass
  rw [auto_source selfSigned a host port domains at_ name src mem new] at h
  obtain ⟨m, hm, -⟩ := manager_eq o domains
  simp [configured, hm, Except.map] at h
  subst h
  have := (rfc _ _ _ pass).1
  cases this

/-- **C106 (part).** Certificates from the authority are kept in the directory `golang-autocert` among the caches of the user, if it is there
or can be made, and otherwise nowhere. -/
theorem C106_cache (o : OS) (there : Bytes → Prop) (dirs : MakesDirs o there) (parts : List Bytes) (user : UserCache o parts)
    (load : Bytes → Bytes → Except GoErr (Bytes × Bytes)) (domains : List Bytes) :
    ∃ m, configured o load (.autoTLS domains) = .ok (some { manager := some m }) ∧
      (there (o.join (parts ++ [b!"golang-autocert"])) → m.cache = some (o.join (parts ++ [b!"golang-autocert"]))) ∧
      (¬ there (o.join (parts ++ [b!"golang-autocert"])) → m.cache = none) := by
  have dir : cacheDir o = o.join (parts ++ [b!"golang-autocert"]) := by
    cases user with
    | mac h home =>
      have hw : o.goos ≠ b!"windows" := by rw [h]; decide
      simp only [cacheDir, homeDir]
      rw [if_pos h, if_neg hw, if_pos home]
      rfl
    | xdg h h' set => simp [cacheDir, h, h', set, base]
    | home h h' unset home => simp [cacheDir, homeDir, h, h', unset, home, base]
    | appdata h set =>
      have hd : o.goos ≠ b!"darwin" := by rw [h]; decide
      simp only [cacheDir, firstSet]
      rw [if_neg hd, if_pos h, if_pos set]
      rfl
  obtain ⟨m, hm, -, -, hc⟩ := manager_eq o domains
  rw [dir] at hc
  refine ⟨m, by simp [configured, hm, Except.map], ?_, ?_⟩
  · intro h
    rw [hc, if_pos]
    unfold mkdirIfNotExists
    split
    · rfl
    · rename_i hs
      by_cases hmk : o.mkdirAll (o.join (parts ++ [b!"golang-autocert"])) = none
      · exact hmk
      · exact absurd h (dirs.failed _ hs hmk)
  · intro h
    rw [hc, if_neg]
    unfold mkdirIfNotExists
    split
    · rename_i hs
      exact absurd (dirs.stat _ hs) h
    · exact fun e => h (dirs.made _ e)

/-- **C106 (part).** A self-signed certificate may be used for ten years (of 365 days) from when it was made. -/
theorem C106_ten_years (made now : Nat) : Usable (template made) now ↔ made ≤ now ∧ now - made ≤ 3650 * 86400 := by
  simp only [Usable, template]
  omega

/-- **C106** is false of self-signed certificates: they are not for any host, whatever clients trust. -/
theorem C106_no_host_violation (starred : Bytes → Bytes → Prop) (made : Nat) (host : Bytes) : ¬ IsFor starred (template made) host := by
  rintro (⟨n, h, -⟩ | h) <;> cases h

/-- **C106** is false of servers which are started again after ten years: whatever the libraries, and whatever happened in between (except that looking for the
files failed), a certificate which was once made is used although its time is over. -/
theorem C106_expired_violation (X : Crypto) (hX : Sound X) (d : Disk) (c k : Bytes) (hc : d.cert = some c) (hk : d.key = some k)
    (hl : X.loads c k = true) (says : Bytes → Template) (made : Nat) (hs : says c = template made)
    (n : Nat) (life : List (List Outcome)) (nofail : ∀ os ∈ life, .fail ∉ os) (m : Nat) (long : enough X (n + life.length) ≤ m)
    (now : Nat) (late : made + 3650 * 86400 < now) :
    ∃ d', start X (n + life.length) (starts X n d life).1 (List.replicate m .ok) = (d', .serving c k) ∧ ¬ Usable (says c) now := by
  have h := C85_used_again X hX d c k hc hk hl n life nofail m long
  refine ⟨d, ?_, ?_⟩
  · rw [h.1]; exact h.2
  · rw [hs, C106_ten_years]
    omega

/-- A system on which nothing of this is vacuous. -/
def linux : OS where
  goos := b!"linux"
  getenv := fun v => if v = b!"HOME" then b!"/home/ann" else []
  join := fun parts => (parts.intersperse b!"/").flatten
  stat := fun _ => none
  mkdirAll := fun _ => none

example : MakesDirs linux (fun _ => True) := ⟨fun _ _ => trivial, fun _ _ => trivial, fun _ _ h => absurd rfl h⟩
example : UserCache linux [b!"/home/ann", b!".cache"] := .home (by decide) (by decide) (by decide) (by decide)
example : configured linux (fun c k => .ok (c, k)) (.autoTLS [b!"example.com"]) =
    .ok (some { manager := some ⟨true, some [b!"example.com"], some b!"/home/ann/.cache/golang-autocert"⟩ }) := by decide
example : MayRequest (fun s => some (lower s)) ⟨true, some [b!"example.com"], none⟩ b!"EXAMPLE.com" :=
  ⟨rfl, b!"example.com", by decide, by intro hs h; cases h; exact ⟨b!"example.com", by decide⟩⟩
example : ¬ MayRequest (fun s => some (lower s)) ⟨true, some [b!"example.com"], none⟩ b!"example.org" := by
  rintro ⟨-, a, h, h'⟩
  obtain ⟨d, hd, e⟩ := h' _ rfl
  rw [List.mem_singleton.1 hd] at e
  rw [← h] at e
  exact absurd e (by decide)
/-- What the listener would have to be told. -/
example : ∃ alpn, FollowsALPN alpn ∧ MayPass alpn { nextProtos := [b!"http/1.1", acmeTLS] } :=
  ⟨fun server client => server.find? (fun p => client.contains p), by
    intro server client p h
    exact ⟨List.mem_of_find?_eq_some h, by simpa using List.find?_some h⟩, by unfold MayPass; decide⟩
example : IsFor (fun n h => n = h) { template 0 with dnsNames := [b!"localhost"] } b!"localhost" := .inl ⟨_, by simp, rfl⟩
example : Usable (template 100) 200 := by rw [C106_ten_years]; decide

end Indigo.Https
