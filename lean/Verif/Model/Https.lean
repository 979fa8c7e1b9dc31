/-
Model of https.go: where certificates are kept, what a listener for HTTPS is given, and what a self-signed certificate says.
(Its files, with failures and crashes, are in Model/Certs.)
-/
import Verif.Model.App

namespace Indigo.Https

/-- What the operating system is asked for: `runtime.GOOS`, `os.Getenv` (empty if unset), `filepath.Join`, `os.Stat` (`none` is an error,
otherwise whether it is a directory) and `os.MkdirAll`. Directories are looked at and made one after another; nobody else
changes them meanwhile (a simplification). -/
structure OS where
  goos : Bytes
  getenv : Bytes → Bytes
  join : List Bytes → Bytes
  stat : Bytes → Option Bool
  mkdirAll : Bytes → Option GoErr

/-- https.go:20-28 `homeDir`. -/
def homeDir (o : OS) : Bytes :=
  if o.goos = b!"windows" then o.getenv b!"HOMEDRIVE" ++ o.getenv b!"HOMEPATH"
  else if o.getenv b!"HOME" ≠ [] then o.getenv b!"HOME"
  else b!"/"

/-- https.go:31 `base`. -/
def base : Bytes := b!"golang-autocert"

/-- https.go:36-40: the loop, for the variables named. -/
def firstSet (o : OS) : List Bytes → Option Bytes
  | [] => none
  | ev :: more => if o.getenv ev ≠ [] then some (o.getenv ev) else firstSet o more

/-- https.go:30-48 `cacheDir`. -/
def cacheDir (o : OS) : Bytes :=
  if o.goos = b!"darwin" then o.join [homeDir o, b!"Library", b!"Caches", base]
  else if o.goos = b!"windows" then
    match firstSet o [b!"APPDATA", b!"CSIDL_APPDATA", b!"TEMP", b!"TMP"] with
    | some v => o.join [v, base]
    | none => o.join [homeDir o, base]
  else if o.getenv b!"XDG_CACHE_HOME" ≠ [] then o.join [o.getenv b!"XDG_CACHE_HOME", base]
  else o.join [homeDir o, b!".cache", base]

/-- https.go:155-161 `mkdirIfNotExists`. -/
def mkdirIfNotExists (o : OS) (dir : Bytes) : Option GoErr :=
  if o.stat dir = some true then none else o.mkdirAll dir

/-- `autocert.Manager`, the fields which are set: `Prompt` (whether the terms of the authority are accepted), `HostPolicy`
(`HostWhitelist` of some names, or nil) and `Cache` (`DirCache` of a directory, or nil). -/
structure Manager where
  acceptTOS : Bool := false
  hosts : Option (List Bytes) := none
  cache : Option Bytes := none
  deriving DecidableEq, Repr

/-- `tls.Config`, the fields which are set: `Certificates`, loaded from files, and `GetCertificate`, of a manager. Also `NextProtos`,
which no one sets. -/
structure TLSConfig where
  certificates : List (Bytes × Bytes) := []
  manager : Option Manager := none
  nextProtos : List Bytes := []
  deriving DecidableEq, Repr

/-- https.go:50-61 `tlsListener`: what `tls.Listen` is called with. `load` is `tls.LoadX509KeyPair`. -/
def tlsListener (load : Bytes → Bytes → Except GoErr (Bytes × Bytes)) (cert key : Bytes) : Except GoErr TLSConfig :=
  match load cert key with
  | .error e => .error e
  | .ok pair => .ok { certificates := [pair] }

/-- https.go:63-86 `autoTLSListener`: what `tls.Listen` is called with. (The line which is logged is left out.) -/
def autoTLSListener (o : OS) (domains : List Bytes) : Except GoErr TLSConfig :=
  let m : Manager := { acceptTOS := true }
  let m := if domains.length > 0 then { m with hosts := some domains } else m
  let cache := cacheDir o
  let m := match mkdirIfNotExists o cache with
    | some _ => m
    | none => { m with cache := some cache }
  .ok { manager := some m }

/-- indi.go:129-130: the factory of a source is called. `none`: `net.Listen`, without TLS; custom ones do what they like. -/
def configured (o : OS) (load : Bytes → Bytes → Except GoErr (Bytes × Bytes)) : App.Factory → Except GoErr (Option TLSConfig)
  | .tls cert key => (tlsListener load cert key).map some
  | .autoTLS domains => (autoTLSListener o domains).map some
  | _ => .ok none

/-- `x509.Certificate`, as a template: the fields which are set, and those for the names it is for, which are not. Times in
seconds. -/
structure Template where
  serialNumber : Nat
  organization : List Bytes
  notBefore : Nat
  notAfter : Nat
  keyUsage : List Bytes
  extKeyUsage : List Bytes
  basicConstraintsValid : Bool
  dnsNames : List Bytes := []
  ipAddresses : List Bytes := []
  deriving DecidableEq, Repr

/-- https.go:108-119: the template of a self-signed certificate. -/
def template (now : Nat) : Template where
  serialNumber := 1
  organization := [b!"Localhost"]
  notBefore := now
  notAfter := now + 10 * 365 * 24 * 3600
  keyUsage := [b!"KeyEncipherment", b!"DigitalSignature"]
  extKeyUsage := [b!"ServerAuth"]
  basicConstraintsValid := true

end Indigo.Https
