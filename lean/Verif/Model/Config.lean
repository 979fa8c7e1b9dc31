/-
Model of config/config.go.
-/
import Verif.Base.Bytes

namespace Indigo

/-! config/config.go:14-108: the configuration structures, flattened to one record. Numbers are `Int`
(`int`, `int64`, `uint`, `time.Duration` in nanoseconds); the map of default headers is `none` when nil. -/

/-- config/config.go:102-108 `Config` with its parts (lines 14-100). -/
structure Config where
  urlBufferDefault : Int := 0
  urlBufferMaximal : Int := 0
  queryPreAlloc : Int := 0
  headersNumberDefault : Int := 0
  headersNumberMaximal : Int := 0
  headersMaxKeyLength : Int := 0
  headersMaxValueLength : Int := 0
  keySpaceDefault : Int := 0
  keySpaceMaximal : Int := 0
  valueSpaceDefault : Int := 0
  valueSpaceMaximal : Int := 0
  maxEncodingTokens : Int := 0
  defaultHeaders : Option (List (Bytes × Bytes)) := none
  cookiesPreAllocate : Int := 0
  bodyMaxSize : Int := 0
  bodyMaxChunkSize : Int := 0
  bodyDecodingBufferSize : Int := 0
  responseBuffSize : Int := 0
  fileBuffSize : Int := 0
  readBufferSize : Int := 0
  readTimeout : Int := 0
  deriving DecidableEq, Repr

namespace Config

/-- config/config.go:10-12 `DefaultHeaders`. -/
def DefaultHeaders : List (Bytes × Bytes) := [(b!"Accept-Encodings", b!"identity")]

/-- config/config.go:112-166 `Default`. -/
def default : Config where
  urlBufferDefault := 2 * 1024
  urlBufferMaximal := 65535
  queryPreAlloc := 10
  headersNumberDefault := 10
  headersNumberMaximal := 50
  headersMaxKeyLength := 100
  headersMaxValueLength := 8 * 1024
  keySpaceDefault := 1 * 1024
  keySpaceMaximal := 4 * 1024
  valueSpaceDefault := 1 * 1024
  valueSpaceMaximal := 8 * 1024
  maxEncodingTokens := 15
  defaultHeaders := some DefaultHeaders
  cookiesPreAllocate := 5
  bodyMaxSize := 512 * 1024 * 1024
  bodyMaxChunkSize := 128 * 1024
  bodyDecodingBufferSize := 8 * 1024
  responseBuffSize := 1024
  fileBuffSize := 64 * 1024
  readBufferSize := 4 * 1024
  readTimeout := 90 * 1000000000

/-- config/config.go:216-222 `numOr`. -/
def numOr (custom defaultVal : Int) : Int := if custom = 0 then defaultVal else custom

/-- config/config.go:224-230 `mapOr`. -/
def mapOr {α : Type} (custom defaultVal : Option α) : Option α :=
  match custom with
  | none => defaultVal
  | some m => some m

/-- config/config.go:169-214 `Fill`. The field `Headers.CookiesPreAllocate` does not occur in the literal, so
that it is zero. -/
def fill (src : Config) : Config :=
  let defaults := default
  { urlBufferDefault := numOr src.urlBufferDefault defaults.urlBufferDefault
    urlBufferMaximal := numOr src.urlBufferMaximal defaults.urlBufferMaximal
    queryPreAlloc := numOr src.queryPreAlloc defaults.queryPreAlloc
    headersNumberDefault := numOr src.headersNumberDefault defaults.headersNumberDefault
    headersNumberMaximal := numOr src.headersNumberMaximal defaults.headersNumberMaximal
    headersMaxKeyLength := numOr src.headersMaxKeyLength defaults.headersMaxKeyLength
    headersMaxValueLength := numOr src.headersMaxValueLength defaults.headersMaxValueLength
    keySpaceDefault := numOr src.keySpaceDefault defaults.keySpaceDefault
    keySpaceMaximal := numOr src.keySpaceMaximal defaults.keySpaceMaximal
    valueSpaceDefault := numOr src.valueSpaceDefault defaults.valueSpaceDefault
    valueSpaceMaximal := numOr src.valueSpaceMaximal defaults.valueSpaceMaximal
    maxEncodingTokens := numOr src.maxEncodingTokens defaults.maxEncodingTokens
    defaultHeaders := mapOr src.defaultHeaders defaults.defaultHeaders
    bodyMaxSize := numOr src.bodyMaxSize defaults.bodyMaxSize
    bodyMaxChunkSize := numOr src.bodyMaxChunkSize defaults.bodyMaxChunkSize
    bodyDecodingBufferSize := numOr src.bodyDecodingBufferSize defaults.bodyDecodingBufferSize
    responseBuffSize := numOr src.responseBuffSize defaults.responseBuffSize
    fileBuffSize := numOr src.fileBuffSize defaults.fileBuffSize
    readBufferSize := numOr src.readBufferSize defaults.readBufferSize
    readTimeout := numOr src.readTimeout defaults.readTimeout }

end Config
end Indigo
