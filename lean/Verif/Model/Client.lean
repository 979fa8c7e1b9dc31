/-
Model of internal/tcp/client.go.
-/
import Verif.Model.Request

namespace Indigo

/-- internal/tcp/client.go:17-22 `client`, together with the connection below it. The connection is a script:
`conn` are the results of the coming `SetReadDeadline`/`Read` calls (data and error), after which every read
runs into the deadline; `wscript` are the results of the coming `Write` calls, after which all succeed;
`written` is what has been passed to `Write` so far (oldest first). Slices are values: that the read buffer
is overwritten by the next read of the connection is not modelled here. -/
structure Client where
  pending : Bytes := []
  conn : List (Bytes × Option GoErr) := []
  written : List Bytes := []
  wscript : List (Option GoErr) := []
  deriving DecidableEq, Repr

/-- The error of an exceeded read deadline. -/
def GoErr.timeout : GoErr := .other 0

namespace Client

/-- internal/tcp/client.go:35-50 `Read`. -/
def read (c : Client) : (Bytes × Option GoErr) × Client :=
  if c.pending.length > 0 then ((c.pending, none), { c with pending := [] })
  else match c.conn with
    | [] => (([], some .timeout), c)
    | ev :: conn => (ev, { c with conn })

/-- internal/tcp/client.go:59-61 `Unread`. -/
def unread (c : Client) (b : Bytes) : Client := { c with pending := b }

/-- internal/tcp/client.go:69-73 `Write`. -/
def write (c : Client) (b : Bytes) : Option GoErr × Client :=
  (c.wscript.head?.join, { c with written := c.written ++ [b], wscript := c.wscript.tail })

/-- All bytes still to come: the pushed back ones and those of the connection. -/
def stream (c : Client) : Bytes := c.pending ++ (c.conn.map (·.1)).flatten

/-- Number of steps in which reading must come to an end. -/
def size (c : Client) : Nat := c.pending.length + (c.conn.map (fun e => e.1.length + 1)).sum

end Client
end Indigo
