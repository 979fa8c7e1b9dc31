/-
Memory-level model of how http/response.go builds a response's body. `Model/Response.lean` has the body as a value;
here it is a Go slice, which may be memory of the application: `String` and `Bytes` do not copy.
-/
import Verif.Model.Response

namespace Indigo.ResponseMem

/-- An array of bytes: one of the application (the memory of a string or of a slice), or one allocated by Go's `append`
for the response. Arrays are numbered in the order of their allocation. -/
inductive Ref
  | app (i : Nat)
  | own (i : Nat)
  deriving DecidableEq, Repr

/-- A Go slice: `cap` bytes at `off` of an array, the first `len` of which are its elements. -/
structure Slice where
  ref : Ref
  off : Nat
  len : Nat
  cap : Nat
  deriving DecidableEq, Repr

/-- The arrays, by their numbers. -/
structure Mem where
  app : List Bytes := []
  own : List Bytes := []
  deriving DecidableEq, Repr

/-- The content of an array. -/
def Mem.array (m : Mem) : Ref → Bytes
  | .app i => m.app[i]?.getD []
  | .own i => m.own[i]?.getD []

/-- Assignment to an array. -/
def Mem.store (m : Mem) (r : Ref) (b : Bytes) : Mem :=
  match r with
  | .app i => { m with app := m.app.set i b }
  | .own i => { m with own := m.own.set i b }

/-- The elements of a slice. -/
def Mem.read (m : Mem) (s : Slice) : Bytes := ((m.array s.ref).drop s.off).take s.len

/-- Overwriting of `b.length` bytes at `at`. -/
def overwrite (a : Bytes) (pos : Nat) (b : Bytes) : Bytes := a.take pos ++ b ++ a.drop (pos + b.length)

/-- Go's `append(s, b...)`: in place if the capacity suffices; otherwise the elements are copied to a new array, whose
capacity is chosen by the runtime (`grow`, given the old capacity and the length needed; at least the latter). -/
def append (grow : Nat → Nat → Nat) (m : Mem) (s : Slice) (b : Bytes) : Mem × Slice :=
  if s.len + b.length ≤ s.cap then
    (m.store s.ref (overwrite (m.array s.ref) (s.off + s.len) b), { s with len := s.len + b.length })
  else
    let need := s.len + b.length
    let cap := max need (grow s.cap need)
    ({ m with own := m.own ++ [m.read s ++ b ++ List.replicate (cap - need) 0] }, ⟨.own m.own.length, 0, need, cap⟩)

/-- The builder's body, and all memory. -/
structure State where
  mem : Mem := {}
  /-- internal/response/fields.go:15 `Body`; in the beginning nil: no capacity. -/
  body : Slice := ⟨.own 0, 0, 0, 0⟩
  deriving DecidableEq, Repr

/-- What an application does with the body of a response. -/
inductive Call
  /-- the application gets a new string or slice with this content -/
  | alloc (content : Bytes)
  | string (i off len : Nat)
  | bytes (s : Slice)
  | write (b : Bytes)
  | json (pieces : List Bytes)
  | clear
  deriving DecidableEq, Repr

/-- The calls:
- http/response.go:108-110 `String`: `uf.S2B` of the utils module gives a slice of the string's memory whose capacity
  is its length; here the string is `len` bytes at `off` of the application's array `i`;
- 114-117 `Bytes` without copying; 120-123 `Write` by `append`;
- 176-184 `TryJSON`: `Body[:0]`, then the external encoder calls `Write` with the pieces of its output (the content type
  and the error are not about the body; `JSON`, lines 188-195, and `Error`, lines 201-219, continue with `String` of the error's text);
- internal/response/fields.go:31 `Clear`: nil. (Also called by `Request.Respond`, http/request.go:145-147, for each response.) -/
def step (grow : Nat → Nat → Nat) (st : State) : Call → State
  | .alloc content => { st with mem := { st.mem with app := st.mem.app ++ [content] } }
  | .string i off len => { st with body := ⟨.app i, off, len, len⟩ }
  | .bytes s => { st with body := s }
  | .write b => let r := append grow st.mem st.body b; ⟨r.1, r.2⟩
  | .json pieces =>
    pieces.foldl (fun st b => let r := append grow st.mem st.body b; ⟨r.1, r.2⟩) { st with body := { st.body with len := 0 } }
  | .clear => { st with body := ⟨.own 0, 0, 0, 0⟩ }

/-- All calls. -/
def run (grow : Nat → Nat → Nat) (calls : List Call) : State := calls.foldl (step grow) {}

end Indigo.ResponseMem
