/-
C45 and C48 together: what a plain listener beside an encrypted one comes to.
-/
import Verif.Props.App
import Verif.Props.ServeWitness

namespace Indigo.Props
open Indigo.Serve Indigo.Spec

/-- **C45** is false of an application which listens for HTTP on port 80 and for HTTPS on port 443: the connections of port 80
(its listener does not encrypt) are served with the encryption token of TLS, and HTTPSOnly lets their requests through. -/
theorem C45_plain_listener_violation :
    let b := (App.both.bind (fun _ _ => none)).2
    ∃ src srv enc, App.both.sources[0]? = some src ∧ src.Addr = b!"0.0.0.0:80" ∧ src.Listen = .net ∧
      b.servers[0]? = some srv ∧ b.handlerFor srv = some (.http enc) ∧
      exchange (Middleware.httpsOnly Fold.ascii [] report) enc [b!"GET / HTTP/1.1\r\nHost: a\r\n\r\n"] = ([
        b!"HTTP/1.1 200 OK\r\nAccept-Encodings: identity\r\nContent-Type: text/html\r\nContent-Length: 2\r\n\r\n/ "],
        some .readFailed) :=
  ⟨_, _, 1, rfl, by decide, by decide, rfl, by decide, by decide +kernel⟩

end Indigo.Props
