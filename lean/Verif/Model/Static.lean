/-
Model of internal/pathlib/pathlib.go and router/inbuilt/static.go, with the memory shared by the requests served at the
same time.
-/
import Verif.Model.Serializer
import Verif.Model.Router

namespace Indigo

namespace PathLib

def BACKSLASH : Byte := 92

/-- internal/pathlib/pathlib.go:43-54 `usingSeparator`. -/
def usingSeparator : Bytes → Byte
  | [] => SLASH
  | c :: cs => if c = SLASH ∨ c = BACKSLASH then c else usingSeparator cs

/-- internal/pathlib/pathlib.go:56-64 `withTrailingSep`; `none` is the panic of `path[len(path)-1]` for an empty
string. -/
def withTrailingSep (path : Bytes) : Option Bytes :=
  match path.getLast? with
  | none => none
  | some c => if c = usingSeparator path then some path else some (path ++ [usingSeparator path])

/-- internal/pathlib/pathlib.go:7-12: the fields of `Path` which never change. -/
structure Conf where
  maxPrefixLen : Nat
  prefix_ : Bytes
  replaceWith : Bytes
  deriving DecidableEq, Repr

/-- internal/pathlib/pathlib.go:14-22 `NewPath`; `none` is a panic. -/
def newPath (pre replaceWith : Bytes) : Option Conf :=
  match withTrailingSep pre, withTrailingSep replaceWith with
  | some pre, some replaceWith => some ⟨max pre.length replaceWith.length, pre, replaceWith⟩
  | _, _ => none

/-- The changing fields of `Path` (internal/pathlib/pathlib.go:8-9) and the memory: `heap` are all byte arrays ever
allocated for `buff`, `cur` the one `buff` is now. -/
structure Mem where
  heap : List Bytes := [[]]
  cur : Nat := 0
  buffLen : Nat := 0
  deriving DecidableEq, Repr

/-- The content of `p.buff`. -/
def Mem.buff (m : Mem) : Bytes := m.heap.getD m.cur []

/-- A string made by `uf.B2S`: bytes `lo` to `hi` of an array, read whenever it is used. -/
structure View where
  arr : Nat
  lo : Nat
  hi : Nat
  deriving DecidableEq, Repr

/-- What a view reads at the moment. -/
def Mem.read (m : Mem) (v : View) : Bytes := Serializer.slice (m.heap.getD v.arr []) v.lo v.hi

/-- internal/pathlib/pathlib.go:25-32 `Set`. -/
def set (c : Conf) (m : Mem) (path : Bytes) : Mem :=
  let offset := c.maxPrefixLen - c.prefix_.length
  let m := if offset + path.length > m.buff.length then
      { m with heap := m.heap ++ [List.replicate (offset + path.length) 0], cur := m.heap.length }
    else m
  { m with
    heap := m.heap.set m.cur (Serializer.copyAt m.buff offset path)
    buffLen := offset + min path.length (m.buff.length - offset) }

/-- internal/pathlib/pathlib.go:34-39 `Relative`; `none` is a panic of one of the slice expressions. -/
def relative (c : Conf) (m : Mem) : Option (View × Mem) :=
  let offset := c.maxPrefixLen - c.replaceWith.length
  if offset > m.buff.length then none
  else
    let m := { m with heap := m.heap.set m.cur (Serializer.copyAt m.buff offset c.replaceWith) }
    if offset > m.buffLen ∨ m.buffLen > m.buff.length then none
    else some (⟨m.cur, offset, m.buffLen⟩, m)

end PathLib

namespace Static
open PathLib

/-- router/inbuilt/static.go:27-42 `isSafe`: the loop looks for the next dot (`IndexByte`); a dot directly following it
makes the path unsafe. The first argument bounds the number of iterations. -/
def isSafeLoop : Nat → Bytes → Bool
  | 0, _ => true
  | n + 1, path =>
    match cut DOT path with
    | none => true
    | some (_, rest) => if rest.head? = some DOT then false else isSafeLoop n rest

/-- router/inbuilt/static.go:27-42 `isSafe`. -/
def isSafe (path : Bytes) : Bool := isSafeLoop path.length path

/-- Where a request served by the handler of router/inbuilt/static.go:15-23 is. -/
inductive Thread
  /-- before line 16 -/
  | start (path : Bytes)
  /-- line 16 done: the path is in the shared buffer -/
  | stored
  /-- line 17 done -/
  | viewing (v : View)
  /-- lines 18-20 passed -/
  | checked (v : View)
  /-- line 22: `File` has been asked to open this path -/
  | opened (p : Bytes)
  /-- line 19: 404 -/
  | refused
  | panicked
  deriving DecidableEq, Repr

/-- One line of the handler, executed by one of the requests. Simplification: each of the lines is atomic (so the
model has fewer interleavings than the program). -/
def step (c : Conf) : Thread → Mem → Thread × Mem
  | .start path, m => (.stored, set c m path)
  | .stored, m =>
    match relative c m with
    | none => (.panicked, m)
    | some (v, m) => (.viewing v, m)
  | .viewing v, m => (if isSafe (m.read v) then .checked v else .refused, m)
  | .checked v, m => (.opened (m.read v), m)
  | t, m => (t, m)

/-- A schedule: which request executes its next line. -/
def run (c : Conf) : List Nat → List Thread × Mem → List Thread × Mem
  | [], s => s
  | i :: is, (ts, m) =>
    match ts[i]? with
    | none => run c is (ts, m)
    | some t =>
      let (t, m) := step c t m
      run c is (ts.set i t, m)

/-- A request served from its beginning to its end while no other request runs. -/
def serve (c : Conf) (m : Mem) (path : Bytes) : Thread × Mem :=
  let (t, m) := step c (.start path) m
  let (t, m) := step c t m
  let (t, m) := step c t m
  step c t m

/-- Requests served one after the other. -/
def serveAll (c : Conf) : List Bytes → Mem → Mem
  | [], m => m
  | p :: ps, m => serveAll c ps (serve c m p).2

/-- router/inbuilt/static.go:15-23: the handler, for requests served one at a time, with the response. `none` is a
panic. `fs` is the file system. -/
def handler (text : GoErr → Bytes) (fs : Bytes → Fields.FileAnswer) (c : Conf) : Router.Handler (StateT Mem Option) :=
  fun req m =>
    match serve c m req.Path with
    | (.opened p, m) => some ((Fields.new.file text (fs p), req), m)
    | (.refused, m) => some ((Fields.new.error text (some (.http Status.ErrNotFound)) [], req), m)
    | _ => none

end Static
end Indigo
