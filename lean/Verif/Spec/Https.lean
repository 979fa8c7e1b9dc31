/-
C106: what others do with what the server is given for HTTPS.
-/
import Verif.Model.Https
import Verif.Spec.Certs

namespace Indigo.Https

/-- The protocol for which an authority asks, alone, when it checks that a server is the one for a name (RFC 8737, 3). -/
def acmeTLS : Bytes := b!"acme-tls/1"

/-- RFC 7301, 3.1 (which crypto/tls follows): the protocol a server chooses for a connection is one of those it was told and of those
the client has named. -/
def FollowsALPN (alpn : List Bytes → List Bytes → Option Bytes) : Prop :=
  ∀ server client p, alpn server client = some p → p ∈ server ∧ p ∈ client

/-- RFC 8737, 3: the check can pass only if the server chooses the protocol asked for. (It is the only kind of check autocert takes part
in, unless it is given the plain HTTP requests of the server, too.) -/
def MayPass (alpn : List Bytes → List Bytes → Option Bytes) (cfg : TLSConfig) : Prop :=
  alpn cfg.nextProtos [acmeTLS] = some acmeTLS

/-- autocert: a certificate for `name`, which a client has asked for, is looked for in the cache, and requested from the authority, if there is no policy, or
it is a list which has the name. Names are compared in the form `ascii` gives them (idna: lower case, punycode), if it does. -/
def MayRequest (ascii : Bytes → Option Bytes) (m : Manager) (name : Bytes) : Prop :=
  m.acceptTOS = true ∧ ∃ a, ascii name = some a ∧ ∀ hosts, m.hosts = some hosts → ∃ d ∈ hosts, ascii d = some a

/-- RFC 9525, 6.3 and 6.4 (and crypto/x509): a certificate is for a host if it has its name, possibly with a star, among its DNS names, or its
address among its IP addresses. Nothing else in it counts. -/
def IsFor (starred : Bytes → Bytes → Prop) (c : Template) (host : Bytes) : Prop :=
  (∃ n ∈ c.dnsNames, starred n host) ∨ host ∈ c.ipAddresses

/-- RFC 5280, 4.1.2.5: the time when a certificate may be used. -/
def Usable (c : Template) (now : Nat) : Prop := c.notBefore ≤ now ∧ now ≤ c.notAfter

/-- A directory which is made is there, and one which is there is not made. -/
structure MakesDirs (o : OS) (there : Bytes → Prop) : Prop where
  stat : ∀ d, o.stat d = some true → there d
  made : ∀ d, o.mkdirAll d = none → there d
  failed : ∀ d, o.stat d ≠ some true → o.mkdirAll d ≠ none → ¬ there d

/-- The directory for caches of the user, as the conventions of the system have it (on Linux, the XDG Base Directory Specification). -/
inductive UserCache (o : OS) : List Bytes → Prop
  | mac (h : o.goos = b!"darwin") (home : o.getenv b!"HOME" ≠ []) : UserCache o [o.getenv b!"HOME", b!"Library", b!"Caches"]
  | xdg (h : o.goos ≠ b!"darwin") (h' : o.goos ≠ b!"windows") (set : o.getenv b!"XDG_CACHE_HOME" ≠ []) : UserCache o [o.getenv b!"XDG_CACHE_HOME"]
  | home (h : o.goos ≠ b!"darwin") (h' : o.goos ≠ b!"windows") (unset : o.getenv b!"XDG_CACHE_HOME" = []) (home : o.getenv b!"HOME" ≠ []) :
    UserCache o [o.getenv b!"HOME", b!".cache"]
  | appdata (h : o.goos = b!"windows") (set : o.getenv b!"APPDATA" ≠ []) : UserCache o [o.getenv b!"APPDATA"]

end Indigo.Https
