/-
Model of internal/hexconv/hexconv.go and internal/uridecode/decoder.go.
-/
import Verif.Model.Status

namespace Indigo.UriDecode

/-- internal/hexconv/hexconv.go:3-32 (`decodeTable`, `Parse`): entries not listed in the table are 0. -/
def hexParse (c : Byte) : Byte :=
  if 48 ≤ c ∧ c ≤ 57 then c - 48
  else if 97 ≤ c ∧ c ≤ 102 then c - 97 + 10
  else if 65 ≤ c ∧ c ≤ 70 then c - 65 + 10
  else 0

/-- internal/uridecode/decoder.go:18: the byte written for one escape. -/
def unescape (h l : Byte) : Byte := (hexParse h <<< 4) ||| hexParse l

/-- internal/uridecode/decoder.go:11-27 `Decode`, with the destination `buff` not overlapping `src`
(the aliased use is modelled by `decodeMem` below). The loop is iterated at most `fuel` times;
every iteration consumes at least three bytes, so `src.length + 1` is enough.
`none` = ErrURIDecoding. -/
def decodeLoop : Nat → Bytes → Bytes → Option Bytes
  | 0, _, _ => none
  | fuel + 1, src, buff =>
    match cut PERCENT src with
    | none => if buff.length = 0 then some src else some (buff ++ src)
    | some (pre, rest) =>
      match rest with
      | h :: l :: src' => decodeLoop fuel src' (buff ++ pre ++ [unescape h l])
      | _ => none

/-- internal/uridecode/decoder.go:11-27 `Decode(src, [])`. -/
def Decode (src : Bytes) : Option Bytes := decodeLoop (src.length + 1) src []

/-! ### Memory-level model of the aliased use `Decode(x, x[:0])` -/

/-- Go's `copy`/`append` of `n` bytes at offset `src` to offset `dst` of the same array (memmove). -/
def moveBytes (mem : Bytes) (dst src n : Nat) : Bytes :=
  mem.take dst ++ (mem.drop src).take n ++ mem.drop (dst + n)

/-- Position of the first `%` in `mem[r:e]`, relative to `r`. -/
def pctIndex (mem : Bytes) (r e : Nat) : Option Nat :=
  match cut PERCENT ((mem.take e).drop r) with
  | none => none
  | some (pre, _) => some pre.length

/-- internal/uridecode/decoder.go:11-27 `Decode(src, buff)` where `src = mem[r:e]` and
`buff = mem[base:w]` live in the same array (parser.go:170, query/internal/parser.go:18).
Returns the array and, on success, the bounds of the returned slice. Every read is made from the
current contents of the array. -/
def decodeMemLoop : Nat → Bytes → (base w r e : Nat) → Bytes × Option (Nat × Nat)
  | 0, mem, _, _, _, _ => (mem, none)
  | fuel + 1, mem, base, w, r, e =>
    match pctIndex mem r e with
    | none =>
      if w = base then (mem, some (r, e))
      else (moveBytes mem w r (e - r), some (base, w + (e - r)))
    | some i =>
      -- decoder.go:13: `i >= len(src)-2`
      if e - r ≤ i + 2 then (mem, none)
      else
        let mem1 := moveBytes mem w r i
        match mem1[r + i + 1]?, mem1[r + i + 2]? with
        | some h, some l =>
          decodeMemLoop fuel (mem1.set (w + i) (unescape h l)) base (w + i + 1) (r + i + 3) e
        | _, _ => (mem1, none)

/-- `Decode(x, x[:0])` with `x = mem[base:e]`. -/
def decodeMem (mem : Bytes) (base e : Nat) : Bytes × Option (Nat × Nat) :=
  decodeMemLoop (e - base + 1) mem base base base e

end Indigo.UriDecode
