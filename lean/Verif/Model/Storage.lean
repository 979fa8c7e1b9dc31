/-
Model of internal/keyvalue/storage.go.
-/
import Verif.Base.Ext

namespace Indigo

/-- internal/keyvalue/storage.go:8-10 `Pair`. -/
structure Pair where
  Key : Bytes
  Value : Bytes
  deriving DecidableEq, Repr

/-- internal/keyvalue/storage.go:15-19 `Storage`. The scratch slices are part of the state because
`Values`/`Keys` return them. -/
structure Storage where
  pairs : List Pair := []
  uniqueBuff : List Bytes := []
  valuesBuff : List Bytes := []
  deriving DecidableEq, Repr

namespace Storage

/-- internal/keyvalue/storage.go:21-30 `New`, `NewPreAlloc` (capacities are not modelled). -/
def new : Storage := {}

/-- internal/keyvalue/storage.go:52-58 `Add`. -/
def add (s : Storage) (k v : Bytes) : Storage := { s with pairs := s.pairs ++ [⟨k, v⟩] }

/-- internal/keyvalue/storage.go:35-49 `NewFromMap`; the map is given in the (arbitrary) order in which
`range` enumerates it. -/
def newFromMap (m : List (Bytes × List Bytes)) : Storage :=
  m.foldl (fun s kv => kv.2.foldl (fun s v => s.add kv.1 v) s) new

/-- internal/keyvalue/storage.go:79-83: the loop of `Get`. -/
def getLoop (F : Fold) (key : Bytes) : List Pair → Option Bytes
  | [] => none
  | p :: ps => if F.eq key p.Key then some p.Value else getLoop F key ps

/-- internal/keyvalue/storage.go:78-86 `Get` (`none` = not found). -/
def get (F : Fold) (s : Storage) (key : Bytes) : Option Bytes := getLoop F key s.pairs

/-- internal/keyvalue/storage.go:67-74 `ValueOr`. -/
def valueOr (F : Fold) (s : Storage) (key or : Bytes) : Bytes :=
  match s.get F key with
  | none => or
  | some v => v

/-- internal/keyvalue/storage.go:61-63 `Value`. -/
def value (F : Fold) (s : Storage) (key : Bytes) : Bytes := s.valueOr F key []

/-- internal/keyvalue/storage.go:95-99: the loop of `Values`. -/
def valuesLoop (F : Fold) (key : Bytes) : List Pair → List Bytes → List Bytes
  | [], acc => acc
  | p :: ps, acc => valuesLoop F key ps (if F.eq p.Key key then acc ++ [p.Value] else acc)

/-- internal/keyvalue/storage.go:92-106 `Values`; nil and empty slice are both `[]`. -/
def values (F : Fold) (s : Storage) (key : Bytes) : List Bytes × Storage :=
  let vs := valuesLoop F key s.pairs []
  (vs, { s with valuesBuff := vs })

/-- internal/keyvalue/storage.go:177-185 `contains`. -/
def contains (F : Fold) (coll : List Bytes) (key : Bytes) : Bool :=
  match coll with
  | [] => false
  | e :: es => if F.eq e key then true else contains F es key

/-- internal/keyvalue/storage.go:115-121: the loop of `Keys`. -/
def keysLoop (F : Fold) : List Pair → List Bytes → List Bytes
  | [], acc => acc
  | p :: ps, acc => keysLoop F ps (if contains F acc p.Key then acc else acc ++ [p.Key])

/-- internal/keyvalue/storage.go:112-124 `Keys`. -/
def keys (F : Fold) (s : Storage) : List Bytes × Storage :=
  let ks := keysLoop F s.pairs []
  (ks, { s with uniqueBuff := ks })

/-- internal/keyvalue/storage.go:133-139: the loop of `Has`. -/
def hasLoop (F : Fold) (key : Bytes) : List Pair → Bool
  | [] => false
  | p :: ps => if F.eq key p.Key then true else hasLoop F key ps

/-- internal/keyvalue/storage.go:132-140 `Has`. -/
def has (F : Fold) (s : Storage) (key : Bytes) : Bool := hasLoop F key s.pairs

/-- internal/keyvalue/storage.go:143-145 `Len`. -/
def len (s : Storage) : Nat := s.pairs.length

/-- internal/keyvalue/storage.go:149-155 `Clone` (copies are fresh slices, hence independent values). -/
def clone (s : Storage) : Storage := ⟨s.pairs, s.uniqueBuff, s.valuesBuff⟩

/-- internal/keyvalue/storage.go:164-167 `Clear`. -/
def clear (s : Storage) : Storage := { s with pairs := [] }

end Storage
end Indigo
