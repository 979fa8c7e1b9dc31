/-
Memory-level model of the strings of a request. The parser (internal/protocol/http1/parser.go) keeps the request line, the keys and
the values of headers in three buffers (`buffer.Buffer` of the utils module) and makes strings of their memory without copying
(`uf.B2S`, parser.go:125, 176, 217, 310). `Model/Parser.lean` has strings as values.
-/
import Verif.Base.Ext
import Verif.Model.ResponseMem

namespace Indigo.Arena
open ResponseMem (Mem Slice append overwrite)

/-- External `buffer.Buffer`, with memory: `Append` is Go's `append` (up to the maximum), `Finish` gives the slice from the end of the
previous segment, `Clear` keeps the memory. `strings` are the segments which were made strings since the buffer was cleared. -/
structure St where
  mem : Mem := {}
  memory : Slice
  start : Nat := 0
  max : Nat
  strings : List Slice := []
  deriving DecidableEq, Repr

/-- internal/construct/constructors.go:36-40: `buffer.New`, which allocates memory for `size` bytes. -/
def St.new (m : Mem) (size max : Nat) : St :=
  { mem := { m with own := m.own ++ [List.replicate size 0] }, memory := ⟨.own m.own.length, 0, 0, size⟩, max }

/-- What the parser does with a buffer while it parses the head of a request. -/
inductive Op
  /-- parser.go:103, 114, 138, 146, 205, 213, 289, 301 -/
  | append (b : Bytes)
  /-- parser.go:118, 150, 217, 310 -/
  | finish
  /-- Overwriting a segment: parser.go:171 decodes the path in place; query/internal/parser.go:18, 45, 64 the query, later. -/
  | rewrite (i : Nat) (b : Bytes)
  deriving DecidableEq, Repr

def step (grow : Nat → Nat → Nat) (st : St) : Op → St
  | .append b =>
    if st.memory.len + b.length > st.max then st
    else { st with mem := (append grow st.mem st.memory b).1, memory := (append grow st.mem st.memory b).2 }
  | .finish =>
    { st with
      strings := st.strings ++ [⟨st.memory.ref, st.memory.off + st.start, st.memory.len - st.start, st.memory.cap - st.start⟩]
      start := st.memory.len }
  | .rewrite i b =>
    match st.strings[i]? with
    | some s => if b.length = s.len then { st with mem := st.mem.store s.ref (overwrite (st.mem.array s.ref) s.off b) } else st
    | none => st

def run (grow : Nat → Nat → Nat) (st : St) (ops : List Op) : St := ops.foldl (step grow) st

/-- parser.go:384-386 `Clear`, which is done when the head of a request is complete, before the handler is called. -/
def St.clear (st : St) : St := { st with memory := { st.memory with len := 0 }, start := 0, strings := [] }

/-- internal/keyvalue/storage.go:149-155, 187-196 `Clone`: the pairs are copied; a pair consists of two strings, that is, of pointers to memory. -/
def clone (pairs : List (Slice × Slice)) : List (Slice × Slice) := pairs.map id

/-- The pairs of a storage at a moment. -/
def contents (m : Mem) (pairs : List (Slice × Slice)) : List (Bytes × Bytes) := pairs.map fun p => (m.read p.1, m.read p.2)

end Indigo.Arena
