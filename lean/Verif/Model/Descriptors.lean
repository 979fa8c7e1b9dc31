/-
Model of the file descriptors behind responses: http/response.go `TryFile` opens files, internal/protocol/http1/serializer.go closes the
attachment of the response it sends. `Model/Response.lean` and `Model/Serializer.lean` have the rest.
-/
import Verif.Model.Serializer

namespace Indigo.Descriptors

/-- A response (http/response.go:27-29), and the descriptor its attachment reads from, if that is a file opened by `TryFile`. -/
structure Resp where
  fields : Fields := Fields.new
  fd : Option Nat := none

/-- The files opened by the process: how many there have been (they are numbered), and which ones are still open. Simplification: Go's garbage collector
closes unreachable files some day; this is left out. -/
structure Files where
  count : Nat := 0
  still : List Nat := []
  deriving DecidableEq, Repr

/-- `os.Open` succeeds (http/response.go:127). -/
def Files.opened (s : Files) : Files := ⟨s.count + 1, s.still ++ [s.count]⟩

/-- `Close` of a file. -/
def Files.close (s : Files) (fd : Nat) : Files := { s with still := s.still.filter (· ≠ fd) }

/-- http/response.go:126-148 `TryFile` within `File` (152-159): the descriptor is passed on to the attachment if there is no error; none of the errors
closes it. -/
def file (text : GoErr → Bytes) (r : Resp) (s : Files) (a : Fields.FileAnswer) : Resp × Files :=
  match a with
  | .noFile => ({ r with fields := r.fields.file text a }, s)
  | .noStat => ({ r with fields := r.fields.file text a }, s.opened)
  | .directory => ({ r with fields := r.fields.file text a }, s.opened)
  | .file .. => (⟨r.fields.file text a, some s.count⟩, s.opened)

/-- http/response.go:163-166 `Attachment`, called by the application with a reader of its own. -/
def attachment (r : Resp) (content : Reader) (size : Int) : Resp := ⟨r.fields.attachment (some content) size, none⟩

/-- http/response.go:227-230 `Clear`, http/request.go:145-147 `Respond`: the attachment is forgotten. -/
def clear (r : Resp) : Resp := ⟨r.fields.clear, none⟩

/-- internal/protocol/http1/serializer.go:87-122 `Write`, with 203: the attachment is closed, which closes its file (internal/types/attachment.go:29-33). -/
def write (F : Fold) (d : Serializer) (p : Proto) (req : Request) (r : Resp) (c : Client) (s : Files) : Serializer.Written × Files :=
  let w := d.write F p req r.fields c
  (w, match r.fd with
    | some fd => if w.closed then s.close fd else s
    | none => s)

end Indigo.Descriptors
