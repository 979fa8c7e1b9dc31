/-
Model of router/inbuilt/internal/radix/arrmap.go, internal/strlenmap/map.go and of Go maps.
-/
import Verif.Base.Bytes

namespace Indigo

/-- A Go `map`, as the list of its entries in the order in which a `range` loop happens to visit them. -/
abbrev GoMap (κ α : Type) := List (κ × α)

namespace GoMap
variable {κ α : Type} [DecidableEq κ]

/-- `v, ok := m[k]` -/
def get? (m : GoMap κ α) (k : κ) : Option α :=
  match m with
  | [] => none
  | (k', v) :: rest => if k' = k then some v else get? rest k

/-- `m[k] = v` -/
def set (m : GoMap κ α) (k : κ) (v : α) : GoMap κ α :=
  match m with
  | [] => [(k, v)]
  | (k', v') :: rest => if k' = k then (k', v) :: rest else (k', v') :: set rest k v

end GoMap

/-- router/inbuilt/internal/radix/arrmap.go:10 `loadfactor`. -/
def loadfactor : Nat := 30

/-- router/inbuilt/internal/radix/arrmap.go:15-19 `arrMap`, with an arbitrary type of nodes. -/
structure ArrMap (α : Type) where
  arrOverflow : Bool := false
  arr : List (Bytes × α) := []
  m : List (Bytes × α) := []

namespace ArrMap
variable {α : Type}

/-- router/inbuilt/internal/radix/arrmap.go:23-27: the loop of `Lookup`. -/
def scan (key : Bytes) : List (Bytes × α) → Option α
  | [] => none
  | (k, n) :: rest => if k = key then some n else scan key rest

/-- router/inbuilt/internal/radix/arrmap.go:21-33 `Lookup` (`none` = nil). -/
def lookup (a : ArrMap α) (key : Bytes) : Option α :=
  if !a.arrOverflow then scan key a.arr else GoMap.get? a.m key

/-- router/inbuilt/internal/radix/arrmap.go:51-57 `escapeToMap`. -/
def escapeToMap (a : ArrMap α) : ArrMap α :=
  { a with m := a.arr.foldl (fun m e => GoMap.set m e.1 e.2) [] }

/-- router/inbuilt/internal/radix/arrmap.go:35-49 `Add`. -/
def add (a : ArrMap α) (key : Bytes) (node : α) : ArrMap α :=
  if a.arrOverflow then { a with m := GoMap.set a.m key node }
  else if a.arr.length + 1 > loadfactor then
    let a := ({ a with arrOverflow := true } : ArrMap α).escapeToMap
    { a with m := GoMap.set a.m key node }
  else { a with arr := a.arr ++ [(key, node)] }

end ArrMap

/-- internal/strlenmap/map.go:3-6, 45-50 `Map`: buckets indexed by the length of the key. -/
structure StrLenMap (α : Type) where
  buckets : List (List (Bytes × α)) := []

namespace StrLenMap
variable {α : Type}

/-- internal/strlenmap/map.go:17-21: the loop of `Get`. -/
def scan (key : Bytes) : List (Bytes × α) → Option α
  | [] => none
  | (k, n) :: rest => if k = key then some n else scan key rest

/-- internal/strlenmap/map.go:12-24 `Get` (`none` = not found). -/
def get (m : StrLenMap α) (key : Bytes) : Option α :=
  if key.length ≥ m.buckets.length then none else scan key (m.buckets.getD key.length [])

/-- internal/strlenmap/map.go:39-43 `resize`. -/
def resize (m : StrLenMap α) (n : Nat) : StrLenMap α :=
  ⟨m.buckets.take n ++ List.replicate (n - m.buckets.length) []⟩

/-- internal/strlenmap/map.go:28-37 `Insert`. -/
def insert (m : StrLenMap α) (key : Bytes) (value : α) : StrLenMap α :=
  let m := if m.buckets.length ≤ key.length then m.resize (key.length + 1) else m
  ⟨m.buckets.set key.length (m.buckets.getD key.length [] ++ [(key, value)])⟩

end StrLenMap
end Indigo
