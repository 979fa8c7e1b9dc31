/-
Model of http/query/query.go and http/query/internal/parser.go.
-/
import Verif.Model.UriDecode
import Verif.Model.Storage

namespace Indigo

/-- Errors returned by the query API. -/
inductive QueryErr
  | http (e : Status.HTTPError)
  /-- http/query/query.go:9 `ErrNoSuchKey` -/
  | noSuchKey
  deriving DecidableEq, Repr

namespace Query

/-- http/query/internal/parser.go:11 `defaultEmptyValueContent`. -/
def defaultEmptyValue : Bytes := b!"1"

/-- Which label of the parser is active; `value` carries the parsed key. -/
inductive Mode
  | key
  | value (k : Bytes)

/-- http/query/internal/parser.go:25-71: both scanning loops, one byte at a time. `tok` is the token
scanned so far (with `+` already replaced by a space); `fresh` tells that a `parseKey` loop has just been
entered by the `goto` (its emptiness test is on line 26). The result is the list of `params.Add` calls and
the error, if any. -/
def scan : Mode → Bytes → (fresh : Bool) → Bytes → List Pair → List Pair × Option Status.HTTPError
  | .key, [], true, _, acc => (acc, none)
  | .key, [], false, tok, acc => (acc ++ [⟨tok, defaultEmptyValue⟩], none)
  | .value k, [], _, tok, acc => (acc ++ [⟨k, tok⟩], none)
  | .key, c :: cs, _, tok, acc =>
    if c = EQUALS then
      if tok.length = 0 then (acc, some Status.ErrBadQuery)
      else scan (.value tok) cs false [] acc
    else if c = AMP then scan .key cs true [] (acc ++ [⟨tok, defaultEmptyValue⟩])
    else if c = PLUS then scan .key cs false (tok ++ [SP]) acc
    else scan .key cs false (tok ++ [c]) acc
  | .value k, c :: cs, _, tok, acc =>
    if c = AMP then scan .key cs true [] (acc ++ [⟨k, tok⟩])
    else if c = PLUS then scan (.value k) cs false (tok ++ [SP]) acc
    else scan (.value k) cs false (tok ++ [c]) acc

/-- Effect of the two scanning loops on the scanned memory (parser.go:45, 64: `data[i] = ' '`): every `+`
reached by the scan is overwritten; scanning stops only at an empty key before `=`. -/
def scanMem : (inKey : Bool) → (tokEmpty : Bool) → Bytes → Bytes
  | _, _, [] => []
  | true, tokEmpty, c :: cs =>
    if c = EQUALS then
      if tokEmpty then c :: cs else c :: scanMem false true cs
    else if c = AMP then c :: scanMem true true cs
    else if c = PLUS then SP :: scanMem true false cs
    else c :: scanMem true false cs
  | false, _, c :: cs =>
    if c = AMP then c :: scanMem true true cs
    else if c = PLUS then SP :: scanMem false false cs
    else c :: scanMem false false cs

/-- http/query/internal/parser.go:13-71 `Parse`: result of parsing `data`. -/
def parsePairs (data : Bytes) : List Pair × Option Status.HTTPError :=
  if data.length = 0 then ([], none)
  else
    match UriDecode.Decode data with
    | none => ([], some Status.ErrURIDecoding)
    | some d => scan .key d true [] []

/-- http/query/internal/parser.go:13-71 `Parse`: contents of `data`'s memory afterwards (the decoding is
done in place, line 18, and the scanning loops overwrite `+`). -/
def parseMem (data : Bytes) : Bytes :=
  match UriDecode.decodeMem data 0 data.length with
  | (mem, none) => mem
  | (mem, some (lo, hi)) =>
    mem.take lo ++ scanMem true true ((mem.take hi).drop lo) ++ mem.drop hi

end Query

/-- http/query/query.go:15-19 `Query`. -/
structure Query where
  parsed : Bool := false
  params : Storage := {}
  raw : Bytes := []
  deriving DecidableEq, Repr

namespace Query

/-- http/query/query.go:30-37 `Set`. -/
def set (q : Query) (raw : Bytes) : Query :=
  if q.parsed then { parsed := false, params := q.params.clear, raw } else { q with raw }

/-- http/query/query.go:67-75 `parse`. -/
def doParse (q : Query) : Query × Option Status.HTTPError :=
  if q.parsed then (q, none)
  else
    let (ps, err) := parsePairs q.raw
    ({ parsed := true
       params := ps.foldl (fun s p => s.add p.Key p.Value) q.params
       raw := parseMem q.raw }, err)

/-- http/query/query.go:44-55 `Get`. -/
def get (F : Fold) (q : Query) (key : Bytes) : Query × Except QueryErr Bytes :=
  match q.doParse with
  | (q, some e) => (q, .error (.http e))
  | (q, none) =>
    match q.params.get F key with
    | none => (q, .error .noSuchKey)
    | some v => (q, .ok v)

/-- http/query/query.go:58-60 `Unwrap`: the storage is returned in any case (it is a pointer). -/
def unwrap (q : Query) : Query × List Pair × Option Status.HTTPError :=
  let (q, e) := q.doParse
  (q, q.params.pairs, e)

end Query
end Indigo
