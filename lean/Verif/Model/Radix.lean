/-
Model of router/inbuilt/internal/radix/template.go and tree.go.
-/
import Verif.Model.Maps
import Verif.Model.Storage

namespace Indigo.Radix

/-- router/inbuilt/internal/radix/template.go:19-22 `Segment`. -/
structure Segment where
  Payload : Bytes
  IsWildcard : Bool
  deriving DecidableEq, Repr

/-- router/inbuilt/internal/radix/template.go:26-28 `Template`. -/
abbrev Template := List Segment

/-- router/inbuilt/internal/radix/template.go:10-15: the states of the template parser. -/
inductive PState
  | eStatic | eSlash | eDynamic | eFinishDynamic
  deriving DecidableEq, Repr

/-- The errors of `Parse` (template.go:17, 42, 57, 80, 91) and of `Insert` (tree.go:10). -/
inductive TErr
  | emptyPath | noLeadingSlash | notWholeSection | badName | notImplemented
  deriving DecidableEq, Repr

/-- router/inbuilt/internal/radix/template.go:45-106: the loop, one byte at a time, and the rest of the function.
`cur` is `tmpl[offset:i]`; the condition of line 99, `offset < len(tmpl)-1`, says that it has at least two bytes at
the end. -/
def parseLoop : PState → (cur : Bytes) → Template → Bytes → Except TErr Template
  | state, cur, segs, [] =>
    if state = .eStatic ∧ cur.length > 1 then .ok (segs ++ [⟨cur, false⟩]) else .ok segs
  | .eStatic, cur, segs, c :: cs =>
    if c = SLASH then parseLoop .eSlash [] (segs ++ [⟨cur, false⟩]) cs
    else if c = 123 then .error .notWholeSection
    else parseLoop .eStatic (cur ++ [c]) segs cs
  | .eSlash, cur, segs, c :: cs =>
    if c = SLASH then parseLoop .eSlash (cur ++ [c]) segs cs
    else if c = 123 then parseLoop .eDynamic [] segs cs
    else parseLoop .eStatic (cur ++ [c]) segs cs
  | .eDynamic, cur, segs, c :: cs =>
    if c = 125 then parseLoop .eFinishDynamic cur (segs ++ [⟨cur, true⟩]) cs
    else if c = SLASH ∨ c = 123 then .error .badName
    else parseLoop .eDynamic (cur ++ [c]) segs cs
  | .eFinishDynamic, _, segs, c :: cs =>
    if c = SLASH then parseLoop .eSlash [] segs cs
    else .error .notWholeSection

/-- router/inbuilt/internal/radix/template.go:30-107 `Parse`. -/
def parse (tmpl : Bytes) : Except TErr Template :=
  match tmpl with
  | [] => .error .emptyPath
  | c :: cs => if c ≠ SLASH then .error .noLeadingSlash else parseLoop .eStatic [] [] cs

/-- router/inbuilt/internal/radix/template.go:119-127 `IsStatic`. -/
def isStatic : Template → Bool
  | [] => true
  | s :: ss => if s.IsWildcard then false else isStatic ss

end Indigo.Radix

namespace Indigo

/-- The effect of a write through the pointer found by `Lookup(key)`: the node stored under the key changes. -/
def ArrMap.update {α : Type} (a : ArrMap α) (key : Bytes) (node : α) : ArrMap α :=
  { a with arr := a.arr.map (fun e => if e.1 = key then (e.1, node) else e)
           m := a.m.map (fun e => if e.1 = key then (e.1, node) else e) }

end Indigo

namespace Indigo.Radix

/-- router/inbuilt/internal/radix/tree.go:23-29 `Node`, with an arbitrary type of payloads. Nodes are owned by
their parents, so that pointers are modelled as values; `nil` is `none`. -/
inductive Node (π : Type) where
  | mk (statics : ArrMap (Node π)) (next : Option (Node π)) (payload : Option π) (wildcard : Bytes) (isWildcard : Bool)

namespace Node
variable {π : Type}

def statics : Node π → ArrMap (Node π) | mk s _ _ _ _ => s
def next : Node π → Option (Node π) | mk _ n _ _ _ => n
def payload : Node π → Option π | mk _ _ p _ _ => p
def wildcard : Node π → Bytes | mk _ _ _ w _ => w
def isWildcard : Node π → Bool | mk _ _ _ _ i => i

/-- router/inbuilt/internal/radix/tree.go:35-41 `newNode`. -/
def newNode (payload : Option π) (isDyn : Bool) (dynName : Bytes) : Node π := mk {} none payload dynName isDyn

/-- router/inbuilt/internal/radix/tree.go:31-33 `New`; `zero` is `new(Payload)`. -/
def new (zero : π) : Node π := newNode (some zero) false []

/-- router/inbuilt/internal/radix/tree.go:53-85 `insertRecursively` (and 43-45 `Insert`). After an error the caller
panics (line 47-51), so that the partial effect of a failed insertion is not modelled. -/
def insert : Node π → Template → π → Except TErr (Node π)
  | mk st nx _ w i, [], p => .ok (mk st nx (some p) w i)
  | mk st nx pl w i, s :: ss, p =>
    if s.IsWildcard then
      if i ∧ s.Payload ≠ w then .error .notImplemented
      else
        match insert (nx.getD (newNode none false [])) ss p with
        | .error e => .error e
        | .ok n => .ok (mk st (some n) pl s.Payload true)
    else
      match st.lookup s.Payload with
      | some n =>
        match insert n ss p with
        | .error e => .error e
        | .ok n => .ok (mk (st.update s.Payload n) nx pl w i)
      | none =>
        match insert (newNode none false []) ss p with
        | .error e => .error e
        | .ok n => .ok (mk (st.add s.Payload n) nx pl w i)

/-- router/inbuilt/registrar.go:89-104 together with tree.go:47-51 `MustInsert` and template.go:109-116 `MustParse`:
templates are parsed and inserted one after the other; an error (panic) ends the registration. The payloads are
given. -/
def register (n : Node π) : List (Bytes × π) → Except TErr (Node π)
  | [] => .ok n
  | (tmpl, p) :: rest =>
    match parse tmpl with
    | .error e => .error e
    | .ok t =>
      match insert n t p with
      | .error e => .error e
      | .ok n => register n rest

/-- router/inbuilt/internal/radix/tree.go:116-137 `processSegment`: the next node (`none` for `false`) and the
parameters. Lines 118-126 are `arrMap.Lookup`. -/
def processSegment (params : Storage) (segment : Bytes) (node : Node π) : Option (Node π) × Storage :=
  match node.statics.lookup segment with
  | some n => (some n, params)
  | none =>
    if !node.isWildcard || segment.length = 0 then (none, params)
    else (node.next, if node.wildcard.length > 0 then params.add node.wildcard segment else params)

/-- router/inbuilt/internal/radix/tree.go:96-113: the loop of `Match`. Every iteration consumes a byte of the path,
so that `path.length` iterations are enough. (A node with a wildcard always has a next node; the model treats a
missing one as "no match".) -/
def matchLoop : Nat → Node π → Bytes → Storage → Option π × Storage
  | 0, node, _, params => (node.payload, params)
  | fuel + 1, node, path, params =>
    if path.length = 0 then (node.payload, params)
    else
      let (segment, path) := match cut SLASH path with
        | some (a, b) => (a, b)
        | none => (path, [])
      match processSegment params segment node with
      | (none, params) => (none, params)
      | (some n, params) => matchLoop fuel n path params

/-- The outcome of `Match`. -/
inductive MatchResult (π : Type)
  /-- `path[0]` of an empty path (tree.go:88) -/
  | panic
  | done (payload : Option π) (params : Storage)

/-- router/inbuilt/internal/radix/tree.go:87-114 `Match`. -/
def «match» (n : Node π) (path : Bytes) (params : Storage) : MatchResult π :=
  match path with
  | [] => .panic
  | c :: cs =>
    if c ≠ SLASH then .done none params
    else
      let r := matchLoop cs.length n cs params
      .done r.1 r.2

end Node
end Indigo.Radix
