/-
Model of the read deadline: internal/tcp/client.go over a connection on which bytes arrive at given times.
-/
import Verif.Model.Client
import Verif.Model.Config

namespace Indigo.Timed

/-- When which byte arrives; in the order of arrival. Times are natural numbers, in the unit of `time.Duration`. -/
abbrev Arrivals := List (Nat × UInt8)

/-- internal/tcp/client.go:43-49: `SetReadDeadline(time.Now().Add(c.timeout))` and `conn.Read(c.buff)` with a buffer of `size` bytes,
beginning at the time `now`. The read waits for the first byte, at most until the deadline; it gives the bytes which have arrived
by then, as many as fit in the buffer. The result: what `Read` answers, when it does, and the bytes which are still to be read.
(A byte which arrives exactly at the deadline is taken to arrive in time.) -/
def readAt (timeout size now : Nat) : Arrivals → (Bytes × Option GoErr) × Nat × Arrivals
  | [] => (([], some .timeout), now + timeout, [])
  | (t, b) :: rest =>
    if now + timeout < t then (([], some .timeout), now + timeout, (t, b) :: rest)
    else
      let arrived := ((t, b) :: rest).takeWhile (fun a => a.1 ≤ max now t)
      (((arrived.take size).map (·.2), none), max now t, ((t, b) :: rest).drop (min size arrived.length))

/-- The results of the reads of a connection, one after another, beginning at the time `now`. `delays` are the times spent before
each of them (by handlers, by writing, by the scheduler). -/
def script (timeout size : Nat) : Nat → Arrivals → List Nat → List (Bytes × Option GoErr)
  | _, _, [] => []
  | now, arr, delay :: delays =>
    let (ev, now, arr) := readAt timeout size (now + delay) arr
    ev :: script timeout size now arr delays

/-- When the last of these reads has come back. -/
def finish (timeout size : Nat) : Nat → Arrivals → List Nat → Nat
  | now, _, [] => now
  | now, arr, delay :: delays =>
    let (_, now, arr) := readAt timeout size (now + delay) arr
    finish timeout size now arr delays

/-- internal/construct/constructors.go:30-34 `Client`: the client of a connection which is accepted at the time `start`, and whose
writes have the results `writes`. After the reads in the list, all run into the deadline. -/
def client (cfg : Config) (start : Nat) (arr : Arrivals) (delays : List Nat) (writes : List (Option GoErr)) : Client :=
  { conn := script cfg.readTimeout.toNat cfg.readBufferSize.toNat start arr delays, wscript := writes }

end Indigo.Timed
