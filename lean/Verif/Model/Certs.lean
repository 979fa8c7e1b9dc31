/-
Model of https.go: the self-signed certificate of `AutoHTTPS` on a local host, with the file system, failures and crashes.
-/
import Verif.Base.Bytes

namespace Indigo.Certs

/-- The two files in the cache directory (https.go:89-93). Simplification: other paths, permissions and directories at these paths are left
out. -/
structure Disk where
  dir : Bool := false
  cert : Option Bytes := none
  key : Option Bytes := none
  deriving DecidableEq, Repr

/-- External: `rsa.GenerateKey`, `x509` and `pem`. The `n`-th generated pair is written in pieces (`pem.Encode` writes header, lines and
footer separately; how, is left open). `loads` tells whether `tls.LoadX509KeyPair` takes two files. -/
structure Crypto where
  certPem : Nat → List Bytes
  keyPem : Nat → List Bytes
  loads : Bytes → Bytes → Bool

/-- Where a process is, which starts a server with `AutoHTTPS` and `Serve`: -/
inductive Pc
  /-- https.go:164-165, the first half of `certExists` -/
  | statCert
  /-- https.go:165, the second half -/
  | statKey
  /-- https.go:99 -/
  | mkdir
  /-- https.go:103-124 -/
  | generate
  /-- https.go:126 -/
  | createCert
  /-- https.go:132, with the position in the file and what is still to be written -/
  | writeCert (off : Nat) (rest : List Bytes)
  /-- https.go:137 -/
  | createKey
  /-- https.go:143 -/
  | marshal
  /-- https.go:148 -/
  | writeKey (off : Nat) (rest : List Bytes)
  /-- https.go:52 `tls.LoadX509KeyPair`, called by `Serve`: reads the certificate -/
  | readCert
  /-- and the key -/
  | readKey (cert : Bytes)
  /-- `Serve` listens, with this certificate and key. -/
  | serving (cert key : Bytes)
  /-- indi.go:93-99: `AutoHTTPS` has logged a warning and adds no listener. -/
  | disabled
  /-- indi.go:130-132: `Serve` returns an error. -/
  | refused
  | dead
  deriving DecidableEq, Repr

/-- What happens in a step: success, failure of the operation, or the process dies before it. (The machine does not; file contents which
have been written are not lost.) -/
inductive Outcome
  | ok
  | fail
  | crash
  deriving DecidableEq, Repr

/-- Writing to a file at a position; gaps are filled with zeros. -/
def writeAt (f : Bytes) (off : Nat) (b : Bytes) : Bytes :=
  f.take off ++ List.replicate (off - f.length) 0 ++ b ++ f.drop (off + b.length)

/-- One step of a process which generates the pair `n`, if it does. A failing `Stat` makes `fileExists` false (https.go:168-172). -/
def step (X : Crypto) (n : Nat) (s : Disk × Pc) (o : Outcome) : Disk × Pc :=
  let (d, pc) := s
  match o, pc with
  | _, .serving c k => (d, .serving c k)
  | _, .disabled => (d, .disabled)
  | _, .refused => (d, .refused)
  | _, .dead => (d, .dead)
  | .crash, _ => (d, .dead)
  | .ok, .statCert => (d, if d.cert.isSome then .statKey else .mkdir)
  | .fail, .statCert => (d, .mkdir)
  | .ok, .statKey => (d, if d.key.isSome then .readCert else .mkdir)
  | .fail, .statKey => (d, .mkdir)
  | .ok, .mkdir => ({ d with dir := true }, .generate)
  | .ok, .generate => (d, .createCert)
  | .ok, .createCert => if d.dir then ({ d with cert := some [] }, .writeCert 0 (X.certPem n)) else (d, .disabled)
  | .ok, .writeCert off (b :: rest) => ({ d with cert := d.cert.map (writeAt · off b) }, .writeCert (off + b.length) rest)
  | .ok, .writeCert _ [] => (d, .createKey)
  | .ok, .createKey => if d.dir then ({ d with key := some [] }, .marshal) else (d, .disabled)
  | .ok, .marshal => (d, .writeKey 0 (X.keyPem n))
  | .ok, .writeKey off (b :: rest) => ({ d with key := d.key.map (writeAt · off b) }, .writeKey (off + b.length) rest)
  | .ok, .writeKey _ [] => (d, .readCert)
  | .fail, .readCert => (d, .refused)
  | .fail, .readKey _ => (d, .refused)
  | .ok, .readCert => (d, match d.cert with | some c => .readKey c | none => .refused)
  | .ok, .readKey c => (d, match d.key with | some k => if X.loads c k then .serving c k else .refused | none => .refused)
  | .fail, _ => (d, .disabled)

/-- The steps of one process. -/
def steps (X : Crypto) (n : Nat) (s : Disk × Pc) (os : List Outcome) : Disk × Pc := os.foldl (step X n) s

/-- Starting the application: its steps, until the process is stopped (whenever) or for as long as one looks. -/
def start (X : Crypto) (n : Nat) (d : Disk) (os : List Outcome) : Disk × Pc := steps X n (d, .statCert) os

/-- The application is started again and again, each time after the process before has ended. The results. -/
def starts (X : Crypto) : Nat → Disk → List (List Outcome) → Disk × List Pc
  | _, d, [] => (d, [])
  | n, d, os :: more =>
    let r := start X n d os
    ((starts X (n + 1) r.1 more).1, r.2 :: (starts X (n + 1) r.1 more).2)

/-- Two processes at the same time, generating the pairs 0 and 1; a schedule tells which one does the next step (all steps succeed). -/
def both (X : Crypto) (s : Disk × Pc × Pc) : List Bool → Disk × Pc × Pc
  | [] => s
  | false :: more => let r := step X 0 (s.1, s.2.1) .ok; both X (r.1, r.2, s.2.2) more
  | true :: more => let r := step X 1 (s.1, s.2.2) .ok; both X (r.1, s.2.1, r.2) more

end Indigo.Certs
