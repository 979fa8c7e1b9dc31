/-
Model of internal/protocol/http1/parser.go: the request head parser.
-/
import Verif.Model.Request

namespace Indigo.Parser

/-- internal/protocol/http1/parser.go:26-36 `parserState`; also the labels of `Parse`
(`contentLengthEnd` is merged into `contentLength`, from where alone it is reached). -/
inductive Label
  | method | path | headerKey | contentLength | contentLengthCR | headerValue | headerValueCRLFCR
  deriving DecidableEq, Repr

/-- The part of `config.Headers` read by the parser (config/config.go `Headers`). -/
structure HeadersCfg where
  /-- `Number.Maximal` -/
  maxNumber : Nat
  /-- `MaxValueLength` -/
  maxValueLength : Nat
  /-- `MaxKeyLength` (config/config.go:49-50); nothing in the parser reads it -/
  maxKeyLength : Nat := 0
  /-- `MaxEncodingTokens`, the capacity of the two token buffers -/
  maxEncodingTokens : Nat
  deriving DecidableEq, Repr

/-- internal/protocol/http1/parser.go:44-57 `Parser`. The request object it points to is part of the state.
The two token buffers are always empty slices (only their capacity matters), `urlEncodedChar` is unused. -/
structure PState where
  req : Request := {}
  startLine : Buf
  keyBuf : Buf
  valBuf : Buf
  headerKey : Bytes := []
  headersNumber : Nat := 0
  contentLength : Int := 0
  state : Label := .method
  cfg : HeadersCfg
  deriving DecidableEq, Repr

/-- Result of `Parse`: the request state, the extra bytes, the error; or a run-time panic. -/
inductive PRes
  | pending
  | completed (extra : Bytes)
  | error (e : Status.HTTPError)
  | panic
  deriving DecidableEq, Repr

/-! ### Recognition of special header names (parser.go:432-456) -/

/-- `c | 0x20`. -/
def or20 (c : Byte) : Byte := c ||| 0x20

/-- internal/protocol/http1/parser.go:445-448 `encodeU64`. -/
def encodeU64 (a b c d e f g h : Byte) : UInt64 :=
  (h.toUInt64 <<< 56) ||| (g.toUInt64 <<< 48) ||| (f.toUInt64 <<< 40) ||| (e.toUInt64 <<< 32) |||
    (d.toUInt64 <<< 24) ||| (c.toUInt64 <<< 16) ||| (b.toUInt64 <<< 8) ||| a.toUInt64

/-- internal/protocol/http1/parser.go:450-452 `encodeU32`. -/
def encodeU32 (a b c d : Byte) : UInt32 :=
  (d.toUInt32 <<< 24) ||| (c.toUInt32 <<< 16) ||| (b.toUInt32 <<< 8) ||| a.toUInt32

/-- internal/protocol/http1/parser.go:454-456 `encodeU16`. -/
def encodeU16 (a b : Byte) : UInt16 := (b.toUInt16 <<< 8) ||| a.toUInt16

/-! internal/protocol/http1/parser.go:432-443: the constants. -/
def cUpgrade := encodeU64 117 112 103 114 97 100 101 0
def cTrailer := encodeU64 116 114 97 105 108 101 114 0
def cContent := encodeU64 99 111 110 116 101 110 116 45
def cConnecti := encodeU64 99 111 110 110 101 99 116 105
def cOn := encodeU16 111 110
def cLength := encodeU64 108 101 110 103 116 104 0 0
def cType := encodeU32 116 121 112 101
def cEncoding := encodeU64 101 110 99 111 100 105 110 103
def cTransfer := encodeU64 116 114 97 110 115 102 101 114
def cEncodin := encodeU64 45 101 110 99 111 100 105 110

/-- internal/protocol/http1/parser.go:225-230: the test for Content-Length. -/
def isContentLengthKey : Bytes → Bool
  | [k0, k1, k2, k3, k4, k5, k6, k7, k8, k9, k10, k11, k12, k13] =>
    cContent == encodeU64 (or20 k0) (or20 k1) (or20 k2) (or20 k3) (or20 k4) (or20 k5) (or20 k6) (or20 k7)
    && cLength == encodeU64 (or20 k8) (or20 k9) (or20 k10) (or20 k11) (or20 k12) (or20 k13) 0 0
  | _ => false

/-- internal/protocol/http1/parser.go:319-326: Upgrade (key of length 7). -/
def isUpgradeKey : Bytes → Bool
  | [k0, k1, k2, k3, k4, k5, k6] =>
    encodeU64 (or20 k0) (or20 k1) (or20 k2) (or20 k3) (or20 k4) (or20 k5) (or20 k6) 0 == cUpgrade
  | _ => false

/-- internal/protocol/http1/parser.go:319-328: Trailer (key of length 7). -/
def isTrailerKey : Bytes → Bool
  | [k0, k1, k2, k3, k4, k5, k6] =>
    encodeU64 (or20 k0) (or20 k1) (or20 k2) (or20 k3) (or20 k4) (or20 k5) (or20 k6) 0 == cTrailer
  | _ => false

/-- internal/protocol/http1/parser.go:330-335: Connection. -/
def isConnectionKey : Bytes → Bool
  | [k0, k1, k2, k3, k4, k5, k6, k7, k8, k9] =>
    cConnecti == encodeU64 (or20 k0) (or20 k1) (or20 k2) (or20 k3) (or20 k4) (or20 k5) (or20 k6) (or20 k7)
    && cOn == encodeU16 (or20 k8) (or20 k9)
  | _ => false

/-- internal/protocol/http1/parser.go:336-343: Content-Type. -/
def isContentTypeKey : Bytes → Bool
  | [k0, k1, k2, k3, k4, k5, k6, k7, k8, k9, k10, k11] =>
    cContent == encodeU64 (or20 k0) (or20 k1) (or20 k2) (or20 k3) (or20 k4) (or20 k5) (or20 k6) (or20 k7)
    && cType == encodeU32 (or20 k8) (or20 k9) (or20 k10) (or20 k11)
  | _ => false

/-- internal/protocol/http1/parser.go:344-351: Content-Encoding. -/
def isContentEncodingKey : Bytes → Bool
  | [k0, k1, k2, k3, k4, k5, k6, k7, k8, k9, k10, k11, k12, k13, k14, k15] =>
    cContent == encodeU64 (or20 k0) (or20 k1) (or20 k2) (or20 k3) (or20 k4) (or20 k5) (or20 k6) (or20 k7)
    && cEncoding == encodeU64 (or20 k8) (or20 k9) (or20 k10) (or20 k11) (or20 k12) (or20 k13) (or20 k14) (or20 k15)
  | _ => false

/-- internal/protocol/http1/parser.go:352-361: Transfer-Encoding. -/
def isTransferEncodingKey : Bytes → Bool
  | [k0, k1, k2, k3, k4, k5, k6, k7, k8, k9, k10, k11, k12, k13, k14, k15, k16] =>
    cTransfer == encodeU64 (or20 k0) (or20 k1) (or20 k2) (or20 k3) (or20 k4) (or20 k5) (or20 k6) (or20 k7)
    && cEncodin == encodeU64 (or20 k8) (or20 k9) (or20 k10) (or20 k11) (or20 k12) (or20 k13) (or20 k14) (or20 k15)
    && or20 k16 == 103
  | _ => false

/-! ### Encoding tokens -/

/-- internal/protocol/http1/parser.go:393-420 `parseEncodingString`. Each iteration shortens `value`, so
`value.length` iterations are enough. -/
def parseEncodingLoop (F : Fold) : Nat → List Bytes → Bytes → Nat → Bool → List Bytes × Bool
  | 0, buff, _, _, chunked => (buff, chunked)
  | fuel + 1, buff, value, maxTokens, chunked =>
    if value.length = 0 then (buff, chunked)
    else
      let (token, value') := match cut COMMA value with
        | none => (value, [])
        | some (a, b) => (a, b)
      let token := trimSpace token
      if token.length = 0 then parseEncodingLoop F fuel buff value' maxTokens chunked
      else if buff.length + 1 > maxTokens then ([], false)
      else
        parseEncodingLoop F fuel (buff ++ [token]) value' maxTokens
          (if F.eq token b!"chunked" then true else chunked)

/-- internal/protocol/http1/parser.go:393-420 `parseEncodingString` with an empty buffer. -/
def parseEncodingString (F : Fold) (value : Bytes) (maxTokens : Nat) : List Bytes × Bool :=
  parseEncodingLoop F value.length [] value maxTokens false

/-! ### The parser -/

/-- internal/protocol/http1/parser.go:382-391 `cleanup`. -/
def cleanup (p : PState) : PState :=
  { p with
    headersNumber := 0
    startLine := p.startLine.clear
    keyBuf := p.keyBuf.clear
    valBuf := p.valBuf.clear
    contentLength := 0
    state := .method }

/-- One block of `Parse` between two labels: either it returns or jumps to a label with the rest of the
data. -/
inductive Step
  | ret (p : PState) (r : PRes)
  | goto (l : Label) (p : PState) (data : Bytes)

/-- internal/protocol/http1/parser.go:110-119: the method's bytes; they are taken from the segment itself
if nothing has been buffered before. -/
def takeMethod (b : Buf) (m : Bytes) : Option (Bytes × Buf) :=
  if b.segLen = 0 then some (m, b)
  else match b.append m with
    | none => none
    | some b => some b.finish

/-- internal/protocol/http1/parser.go:121-131. -/
def finishMethod (p : PState) (methodValue rest : Bytes) : Step :=
  if methodValue.length = 0 then .ret p (.error Status.ErrBadRequest)
  else
    let p := { p with req := { p.req with Method := Method.parse methodValue } }
    if p.req.Method = .Unknown then .ret p (.error Status.ErrMethodNotImplemented)
    else .goto .path p rest

/-- internal/protocol/http1/parser.go:99-132, label `method`. -/
def stepMethod (p : PState) (data : Bytes) : Step :=
  match cut SP data with
  | none =>
    match p.startLine.append data with
    | none => .ret p (.error Status.ErrTooLongRequestLine)
    | some sl => .ret { p with startLine := sl } .pending
  | some (m, rest) =>
    match takeMethod p.startLine m with
    | none => .ret p (.error Status.ErrTooLongRequestLine)
    | some (methodValue, sl) => finishMethod { p with startLine := sl } methodValue rest

/-- internal/protocol/http1/parser.go:151-180: interpreting the request line after the method, already
complete. The result is the request and, if parsing stops here, the outcome. -/
def requestLine (r : Request) (pathAndProto : Bytes) : Request × Option PRes :=
  match cutLast SP pathAndProto with
  | none => (r, some (.error Status.ErrBadRequest))
  | some (reqPath, reqProto) =>
    -- parser.go:157: `reqProto[len(reqProto)-1]`
    match reqProto.getLast? with
    | none => (r, some .panic)
    | some last =>
      let reqProto := if last = CR then reqProto.dropLast else reqProto
      let r := match cut QUEST reqPath with
        | none => r
        | some (_, qu) => { r with Query := r.Query.set qu }
      let reqPath := match cut QUEST reqPath with
        | none => reqPath
        | some (pa, _) => pa
      if reqPath.length = 0 then (r, some (.error Status.ErrBadRequest))
      else
        match UriDecode.Decode reqPath with
        | none => (r, some (.error Status.ErrURIDecoding))
        | some dec =>
          let r := { r with Path := dec, Proto := Proto.fromBytes reqProto }
          if r.Proto = Proto.Unknown then (r, some (.error Status.ErrUnsupportedProtocol))
          else (r, none)

/-- internal/protocol/http1/parser.go:151-183. -/
def finishPath (p : PState) (pathAndProto rest : Bytes) : Step :=
  match requestLine p.req pathAndProto with
  | (r, some out) => .ret { p with req := r } out
  | (r, none) => .goto .headerKey { p with req := r } rest

/-- internal/protocol/http1/parser.go:134-184, label `path`. -/
def stepPath (p : PState) (data : Bytes) : Step :=
  match cut LF data with
  | none =>
    match p.startLine.append data with
    | none => .ret p (.error Status.ErrURITooLong)
    | some sl => .ret { p with startLine := sl, state := .path } .pending
  | some (line, rest) =>
    match p.startLine.append line with
    | none => .ret p (.error Status.ErrURITooLong)
    | some sl =>
      let (pathAndProto, sl) := sl.finish
      finishPath { p with startLine := sl } pathAndProto rest

/-- internal/protocol/http1/parser.go:225-234: where to go on after a header name. -/
def valueLabel (key : Bytes) : Label := if isContentLengthKey key then .contentLength else .headerValue

/-- internal/protocol/http1/parser.go:186-235, label `headerKey`. -/
def stepHeaderKey (p : PState) (data : Bytes) : Step :=
  match data with
  | [] => .ret { p with state := .headerKey } .pending
  | c :: cs =>
    if c = LF then .ret (cleanup p) (.completed cs)
    else if c = CR then .goto .headerValueCRLFCR p cs
    else
      match cut COLON data with
      | none =>
        match p.keyBuf.append data with
        | none => .ret p (.error Status.ErrHeaderFieldsTooLarge)
        | some kb => .ret { p with keyBuf := kb, state := .headerKey } .pending
      | some (k, rest) =>
        match p.keyBuf.append k with
        | none => .ret p (.error Status.ErrHeaderFieldsTooLarge)
        | some kb =>
          let (key, kb) := kb.finish
          let p := { p with keyBuf := kb, headerKey := key, headersNumber := p.headersNumber + 1 }
          if p.headersNumber > p.cfg.maxNumber then .ret p (.error Status.ErrTooManyHeaders)
          else .goto (valueLabel key) p rest

/-- internal/protocol/http1/parser.go:238-249: the digits loop. Returns the new accumulator and the data
from the first byte that is neither a blank nor a digit. -/
def clDigits : Int → Bytes → Int × Bytes
  | n, [] => (n, [])
  | n, c :: cs =>
    if c = SP then clDigits n cs
    else if c < 48 ∨ c > 57 then (n, c :: cs)
    else clDigits (wrap64 (n * 10 + (c - 48).toNat)) cs

/-- internal/protocol/http1/parser.go:237-270, labels `contentLength` and `contentLengthEnd`. -/
def stepContentLength (p : PState) (data : Bytes) : Step :=
  let (n, rest) := clDigits p.contentLength data
  let p := { p with contentLength := n }
  match rest with
  | [] => .ret { p with state := .contentLength } .pending
  | c :: cs =>
    let p := { p with req := { p.req with ContentLength := n } }
    if c = CR then .goto .contentLengthCR p cs
    else if c = LF then .goto .headerKey p cs
    else .ret p (.error Status.ErrBadRequest)

/-- internal/protocol/http1/parser.go:272-283, label `contentLengthCR`. -/
def stepContentLengthCR (p : PState) (data : Bytes) : Step :=
  match data with
  | [] => .ret { p with state := .contentLengthCR } .pending
  | c :: cs => if c ≠ LF then .ret p (.error Status.ErrBadRequest) else .goto .headerKey p cs

/-- internal/protocol/http1/parser.go:315-362: storing a header and interpreting special ones. -/
def storeHeader (F : Fold) (p : PState) (key value : Bytes) : PState :=
  let req := { p.req with Headers := p.req.Headers.add key value }
  let req :=
    if isUpgradeKey key then { req with Upgrade := Proto.chooseUpgrade value }
    else if isTrailerKey key then { req with Encoding := { req.Encoding with HasTrailer := true } }
    else if isConnectionKey key then { req with Connection := value }
    else if isContentTypeKey key then { req with ContentType := value }
    else if isContentEncodingKey key then
      { req with Encoding := { req.Encoding with
          Content := (parseEncodingString F value p.cfg.maxEncodingTokens).1 } }
    else if isTransferEncodingKey key then
      let (toks, chunked) := parseEncodingString F value p.cfg.maxEncodingTokens
      { req with Encoding := { req.Encoding with Transfer := toks, Chunked := chunked } }
    else req
  { p with req := req }

/-- internal/protocol/http1/parser.go:285-365, label `headerValue`. -/
def stepHeaderValue (F : Fold) (p : PState) (data : Bytes) : Step :=
  match cut LF data with
  | none =>
    match p.valBuf.append data with
    | none => .ret p (.error Status.ErrHeaderFieldsTooLarge)
    | some vb =>
      let p := { p with valBuf := vb }
      if vb.segLen > p.cfg.maxValueLength then .ret p (.error Status.ErrHeaderFieldsTooLarge)
      else .ret { p with state := .headerValue } .pending
  | some (line, rest) =>
    match p.valBuf.append line with
    | none => .ret p (.error Status.ErrHeaderFieldsTooLarge)
    | some vb =>
      let p := { p with valBuf := vb }
      if vb.segLen > p.cfg.maxValueLength then .ret p (.error Status.ErrHeaderFieldsTooLarge)
      else
        let (seg, vb) := vb.finish
        let p := { p with valBuf := vb }
        let value := trimLeftSp seg
        -- parser.go:311: `value[len(value)-1]`
        match value.getLast? with
        | none => .ret p .panic
        | some last =>
          let value := if last = CR then value.dropLast else value
          .goto .headerKey (storeHeader F p p.headerKey value) rest

/-- internal/protocol/http1/parser.go:367-379, label `headerValueCRLFCR`. -/
def stepCRLFCR (p : PState) (data : Bytes) : Step :=
  match data with
  | [] => .ret { p with state := .headerValueCRLFCR } .pending
  | c :: cs => if c = LF then .ret (cleanup p) (.completed cs) else .ret p (.error Status.ErrBadRequest)

/-- All labels of `Parse`. -/
def step (F : Fold) (l : Label) (p : PState) (data : Bytes) : Step :=
  match l with
  | .method => stepMethod p data
  | .path => stepPath p data
  | .headerKey => stepHeaderKey p data
  | .contentLength => stepContentLength p data
  | .contentLengthCR => stepContentLengthCR p data
  | .headerValue => stepHeaderValue F p data
  | .headerValueCRLFCR => stepCRLFCR p data

/-- Execution from a label; every jump consumes at least one byte, so `data.length + 1` steps are enough
(`run_fuel` in Proofs/Parser). `none` = out of fuel. -/
def run (F : Fold) : Nat → Label → PState → Bytes → Option (PState × PRes)
  | 0, _, _, _ => none
  | fuel + 1, l, p, data =>
    match step F l p data with
    | .ret p r => some (p, r)
    | .goto l p data => run F fuel l p data

/-- internal/protocol/http1/parser.go:74-380 `Parse` (`none` is unreachable, see `parse_total`). -/
def parse? (F : Fold) (p : PState) (data : Bytes) : Option (PState × PRes) :=
  run F (data.length + 1) p.state p data

/-- internal/protocol/http1/parser.go:74-380 `Parse`. -/
def parse (F : Fold) (p : PState) (data : Bytes) : PState × PRes :=
  (parse? F p data).getD (p, .panic)

/-- internal/protocol/http1/parser.go:59-72 `NewParser` with the buffers of
internal/construct/constructors.go:36-40. -/
def new (cfg : HeadersCfg) (startLineMax keyMax valMax : Nat) : PState :=
  { startLine := { max := startLineMax }, keyBuf := { max := keyMax }, valBuf := { max := valMax }, cfg }

/-- The server loop's use of the parser on the successive reads of a connection
(internal/protocol/http1/suit.go:65-76): feed segments until a result other than `pending`; the remaining
segments are returned. -/
def feed (F : Fold) (p : PState) : List Bytes → PState × PRes × List Bytes
  | [] => (p, .pending, [])
  | d :: ds =>
    match parse F p d with
    | (p, .pending) => feed F p ds
    | (p, r) => (p, r, ds)

end Indigo.Parser
