/-
Model of http/status/codes.go and http/status/errors.go.
-/
import Verif.Base.Bytes

namespace Indigo.Status

/-- http/status/codes.go:9-12: `Code` is a uint16; modelled as `Nat` (no arithmetic is done on it). -/
abbrev Code := Nat

/-! http/status/codes.go:16-85: the code constants (all of them). -/
abbrev Continue : Code := 100
abbrev SwitchingProtocols : Code := 101
abbrev Processing : Code := 102
abbrev EarlyHints : Code := 103
abbrev OK : Code := 200
abbrev Created : Code := 201
abbrev Accepted : Code := 202
abbrev NonAuthoritativeInfo : Code := 203
abbrev NoContent : Code := 204
abbrev ResetContent : Code := 205
abbrev PartialContent : Code := 206
abbrev MultiStatus : Code := 207
abbrev AlreadyReported : Code := 208
abbrev IMUsed : Code := 226
abbrev MultipleChoices : Code := 300
abbrev MovedPermanently : Code := 301
abbrev Found : Code := 302
abbrev SeeOther : Code := 303
abbrev NotModified : Code := 304
abbrev UseProxy : Code := 305
abbrev TemporaryRedirect : Code := 307
abbrev PermanentRedirect : Code := 308
abbrev BadRequest : Code := 400
abbrev Unauthorized : Code := 401
abbrev PaymentRequired : Code := 402
abbrev Forbidden : Code := 403
abbrev NotFound : Code := 404
abbrev MethodNotAllowed : Code := 405
abbrev NotAcceptable : Code := 406
abbrev ProxyAuthRequired : Code := 407
abbrev RequestTimeout : Code := 408
abbrev Conflict : Code := 409
abbrev Gone : Code := 410
abbrev LengthRequired : Code := 411
abbrev PreconditionFailed : Code := 412
abbrev RequestEntityTooLarge : Code := 413
abbrev RequestURITooLong : Code := 414
abbrev UnsupportedMediaType : Code := 415
abbrev RequestedRangeNotSatisfiable : Code := 416
abbrev ExpectationFailed : Code := 417
abbrev Teapot : Code := 418
abbrev MisdirectedRequest : Code := 421
abbrev UnprocessableEntity : Code := 422
abbrev Locked : Code := 423
abbrev FailedDependency : Code := 424
abbrev TooEarly : Code := 425
abbrev UpgradeRequired : Code := 426
abbrev PreconditionRequired : Code := 428
abbrev TooManyRequests : Code := 429
abbrev HeaderFieldsTooLarge : Code := 431
abbrev CloseConnection : Code := 439
abbrev UnavailableForLegalReasons : Code := 451
abbrev InternalServerError : Code := 500
abbrev NotImplemented : Code := 501
abbrev BadGateway : Code := 502
abbrev ServiceUnavailable : Code := 503
abbrev GatewayTimeout : Code := 504
abbrev HTTPVersionNotSupported : Code := 505
abbrev VariantAlsoNegotiates : Code := 506
abbrev InsufficientStorage : Code := 507
abbrev LoopDetected : Code := 508
abbrev NotExtended : Code := 510
abbrev NetworkAuthenticationRequired : Code := 511

/-- http/status/codes.go:90-214: the cases of `Text`. -/
def textTable : List (Code × Bytes) := [
  (100, b!"Continue"),
  (101, b!"Switching Protocols"),
  (102, b!"Processing"),
  (103, b!"Early Hints"),
  (200, b!"OK"),
  (201, b!"Created"),
  (202, b!"Accepted"),
  (203, b!"Non-Authoritative Information"),
  (204, b!"No Content"),
  (205, b!"Reset Content"),
  (206, b!"Partial Content"),
  (207, b!"Multi-Status"),
  (208, b!"Already Reported"),
  (226, b!"IM Used"),
  (300, b!"Multiple Choices"),
  (301, b!"Moved Permanently"),
  (302, b!"Found"),
  (303, b!"See Other"),
  (304, b!"Not Modified"),
  (305, b!"Use Proxy"),
  (307, b!"Temporary Redirect"),
  (308, b!"Permanent Redirect"),
  (400, b!"Bad Request"),
  (401, b!"Unauthorized"),
  (402, b!"Payment Required"),
  (403, b!"Forbidden"),
  (404, b!"Not Found"),
  (405, b!"Method Not Allowed"),
  (406, b!"Not Acceptable"),
  (407, b!"Proxy Authentication Required"),
  (408, b!"Request Timeout"),
  (409, b!"Conflict"),
  (410, b!"Gone"),
  (411, b!"Length Required"),
  (412, b!"Precondition Failed"),
  (413, b!"Request Entity Too Large"),
  (414, b!"Request URI Too Long"),
  (415, b!"Unsupported Media Type"),
  (416, b!"Requested Range Not Satisfiable"),
  (417, b!"Expectation Failed"),
  (418, b!"I'm a teapot"),
  (421, b!"Misdirected Request"),
  (422, b!"Unprocessable Entity"),
  (423, b!"Locked"),
  (424, b!"Failed Dependency"),
  (425, b!"Too Early"),
  (426, b!"Upgrade Required"),
  (428, b!"Precondition Required"),
  (429, b!"Too Many Requests"),
  (431, b!"Request Header Fields Too Large"),
  (451, b!"Unavailable For Legal Reasons"),
  (500, b!"Internal Server Error"),
  (501, b!"Not Implemented"),
  (502, b!"Bad Gateway"),
  (503, b!"Service Unavailable"),
  (504, b!"Gateway Timeout"),
  (505, b!"HTTP Version Not Supported"),
  (506, b!"Variant Also Negotiates"),
  (507, b!"Insufficient Storage"),
  (508, b!"Loop Detected"),
  (510, b!"Not Extended"),
  (511, b!"Network Authentication Required")]

/-- http/status/codes.go:89-218 `Text`. -/
def Text (code : Code) : Bytes :=
  match textTable.lookup code with
  | some t => t
  | none => b!"Unknown Status Code"

/-- http/status/codes.go:223-347: the cases of `Line`. -/
def lineTable : List (Code × Bytes) := [
  (100, b!"100 Continue\r\n"),
  (101, b!"101 Switching Protocol\r\n"),
  (102, b!"102 Processing\r\n"),
  (103, b!"103 Early Hints\r\n"),
  (200, b!"200 OK\r\n"),
  (201, b!"201 Created\r\n"),
  (202, b!"202 Accepted\r\n"),
  (203, b!"203 Non-Authoritative Information\r\n"),
  (204, b!"204 No Content\r\n"),
  (205, b!"205 Reset Content\r\n"),
  (206, b!"206 Partial Content\r\n"),
  (207, b!"207 Multi-Status\r\n"),
  (208, b!"208 Already Reported\r\n"),
  (226, b!"226 IM Used\r\n"),
  (300, b!"300 Multiple Choices\r\n"),
  (301, b!"301 Moved Permanently\r\n"),
  (302, b!"302 Found\r\n"),
  (303, b!"303 See Other\r\n"),
  (304, b!"304 Not Modified\r\n"),
  (305, b!"305 Use Proxy\r\n"),
  (307, b!"307 Temporary Redirect\r\n"),
  (308, b!"308 Permanent Redirect\r\n"),
  (400, b!"400 Bad Request\r\n"),
  (401, b!"401 Unauthorized\r\n"),
  (402, b!"402 Payment Required\r\n"),
  (403, b!"403 Forbidden\r\n"),
  (404, b!"404 Not Found\r\n"),
  (405, b!"405 Method Not Allowed\r\n"),
  (406, b!"406 Not Acceptable\r\n"),
  (407, b!"407 Proxy Authentication Required\r\n"),
  (408, b!"408 Request Timeout\r\n"),
  (409, b!"409 Conflict\r\n"),
  (410, b!"410 Gone\r\n"),
  (411, b!"411 Length Required\r\n"),
  (412, b!"412 Precondition Failed\r\n"),
  (413, b!"413 Request Entity Too Large\r\n"),
  (414, b!"414 Request URI Too Long\r\n"),
  (415, b!"415 Unsupported Media Type\r\n"),
  (416, b!"416 Requested Range Not Satisfiable\r\n"),
  (417, b!"417 Expectation Failed\r\n"),
  (418, b!"418 I'm a teapot\r\n"),
  (421, b!"421 Misdirected Request\r\n"),
  (422, b!"422 Unprocessable Entity\r\n"),
  (423, b!"423 Locked\r\n"),
  (424, b!"424 Failed Dependency\r\n"),
  (425, b!"425 Too Early\r\n"),
  (426, b!"426 Upgrade Required\r\n"),
  (428, b!"428 Precondition Required\r\n"),
  (429, b!"429 Too Many Requests\r\n"),
  (431, b!"431 Request Header Fields Too Large\r\n"),
  (451, b!"451 Unavailable For Legal Reasons\r\n"),
  (500, b!"500 Internal Server Error\r\n"),
  (501, b!"501 Not Implemented\r\n"),
  (502, b!"502 Bad Gateway\r\n"),
  (503, b!"503 Service Unavailable\r\n"),
  (504, b!"504 Gateway Timeout\r\n"),
  (505, b!"505 HTTP Version Not Supported\r\n"),
  (506, b!"506 Variant Also Negotiates\r\n"),
  (507, b!"507 Insufficient Storage\r\n"),
  (508, b!"508 Loop Detected\r\n"),
  (510, b!"510 Not Extended\r\n"),
  (511, b!"511 Network Authentication Required\r\n")]

/-- http/status/codes.go:222-351 `Line`. -/
def Line (code : Code) : Bytes :=
  match lineTable.lookup code with
  | some t => t
  | none => []

/-- http/status/errors.go:3-6 `HTTPError` (a comparable struct: `==` compares message and code). -/
structure HTTPError where
  Message : Bytes
  Code : Code
  deriving DecidableEq, Repr

/-! http/status/errors.go:19-78: the error values (all of them). -/
/-- http/status/errors.go:20 -/
def ErrConnectionTimeout : HTTPError := ⟨b!"connection timed out", 408⟩
/-- http/status/errors.go:21 -/
def ErrCloseConnection : HTTPError := ⟨b!"internal error as a signal", 439⟩
/-- http/status/errors.go:22 -/
def ErrShutdown : HTTPError := ⟨b!"shutdown", 439⟩
/-- http/status/errors.go:23 -/
def ErrGracefulShutdown : HTTPError := ⟨b!"graceful shutdown", 439⟩
/-- http/status/errors.go:25 -/
def ErrBadRequest : HTTPError := ⟨b!"bad request", 400⟩
/-- http/status/errors.go:26 -/
def ErrTooLongRequestLine : HTTPError := ⟨b!"request line is too long", 400⟩
/-- http/status/errors.go:27 -/
def ErrURIDecoding : HTTPError := ⟨b!"invalid URI encoding", 400⟩
/-- http/status/errors.go:28 -/
def ErrBadQuery : HTTPError := ⟨b!"bad URL query", 400⟩
/-- http/status/errors.go:29 -/
def ErrNotFound : HTTPError := ⟨b!"not found", 404⟩
/-- http/status/errors.go:30 -/
def ErrInternalServerError : HTTPError := ⟨b!"internal server error", 500⟩
/-- http/status/errors.go:31 -/
def ErrNotImplemented : HTTPError := ⟨b!"not implemented", 501⟩
/-- http/status/errors.go:32 -/
def ErrMethodNotImplemented : HTTPError := ⟨b!"request method is not supported", 501⟩
/-- http/status/errors.go:33 -/
def ErrMethodNotAllowed : HTTPError := ⟨b!"method not allowed", 405⟩
/-- http/status/errors.go:34 -/
def ErrTooLarge : HTTPError := ⟨b!"too large", 413⟩
/-- http/status/errors.go:35 -/
def ErrBodyTooLarge : HTTPError := ⟨b!"request body is too large", 413⟩
/-- http/status/errors.go:36 -/
def ErrRequestEntityTooLarge : HTTPError := ⟨b!"request entity too large", 413⟩
/-- http/status/errors.go:37 -/
def ErrHeaderFieldsTooLarge : HTTPError := ⟨b!"too large headers section", 431⟩
/-- http/status/errors.go:38 -/
def ErrHeaderKeyTooLarge : HTTPError := ⟨b!"too large header key", 431⟩
/-- http/status/errors.go:39 -/
def ErrHeaderValueTooLarge : HTTPError := ⟨b!"too large header value", 431⟩
/-- http/status/errors.go:40 -/
def ErrTooManyHeaders : HTTPError := ⟨b!"too many headers", 431⟩
/-- http/status/errors.go:41 -/
def ErrRequestHeaderFieldsTooLarge : HTTPError := ⟨b!"request header fields too large", 431⟩
/-- http/status/errors.go:42 -/
def ErrURITooLong : HTTPError := ⟨b!"request URI too long", 414⟩
/-- http/status/errors.go:43 -/
def ErrRequestURITooLong : HTTPError := ⟨b!"request URI too long", 414⟩
/-- http/status/errors.go:44 -/
def ErrUnsupportedProtocol : HTTPError := ⟨b!"protocol is not supported", 505⟩
/-- http/status/errors.go:45 -/
def ErrHTTPVersionNotSupported : HTTPError := ⟨b!"HTTP version not supported", 505⟩
/-- http/status/errors.go:46 -/
def ErrUnauthorized : HTTPError := ⟨b!"unauthorized", 401⟩
/-- http/status/errors.go:47 -/
def ErrPaymentRequired : HTTPError := ⟨b!"payment required", 402⟩
/-- http/status/errors.go:48 -/
def ErrForbidden : HTTPError := ⟨b!"forbidden", 403⟩
/-- http/status/errors.go:49 -/
def ErrNotAcceptable : HTTPError := ⟨b!"not acceptable", 406⟩
/-- http/status/errors.go:50 -/
def ErrProxyAuthRequired : HTTPError := ⟨b!"proxy auth required", 407⟩
/-- http/status/errors.go:51 -/
def ErrRequestTimeout : HTTPError := ⟨b!"request timeout", 408⟩
/-- http/status/errors.go:52 -/
def ErrConflict : HTTPError := ⟨b!"conflict", 409⟩
/-- http/status/errors.go:53 -/
def ErrGone : HTTPError := ⟨b!"gone", 410⟩
/-- http/status/errors.go:54 -/
def ErrLengthRequired : HTTPError := ⟨b!"length required", 411⟩
/-- http/status/errors.go:55 -/
def ErrPreconditionFailed : HTTPError := ⟨b!"precondition failed", 412⟩
/-- http/status/errors.go:56 -/
def ErrUnsupportedMediaType : HTTPError := ⟨b!"unsupported media type", 415⟩
/-- http/status/errors.go:57 -/
def ErrUnsupportedEncoding : HTTPError := ⟨b!"content encoding is not supported", 415⟩
/-- http/status/errors.go:58 -/
def ErrRequestedRangeNotSatisfiable : HTTPError := ⟨b!"requested range not satisfiable", 416⟩
/-- http/status/errors.go:59 -/
def ErrExpectationFailed : HTTPError := ⟨b!"expectation failed", 417⟩
/-- http/status/errors.go:60 -/
def ErrTeapot : HTTPError := ⟨b!"i'm a teapot", 418⟩
/-- http/status/errors.go:61 -/
def ErrMisdirectedRequest : HTTPError := ⟨b!"misdirected request", 421⟩
/-- http/status/errors.go:62 -/
def ErrUnprocessableEntity : HTTPError := ⟨b!"unprocessable entity", 422⟩
/-- http/status/errors.go:63 -/
def ErrLocked : HTTPError := ⟨b!"locked", 423⟩
/-- http/status/errors.go:64 -/
def ErrFailedDependency : HTTPError := ⟨b!"failed dependency", 424⟩
/-- http/status/errors.go:65 -/
def ErrTooEarly : HTTPError := ⟨b!"too early", 425⟩
/-- http/status/errors.go:66 -/
def ErrUpgradeRequired : HTTPError := ⟨b!"upgrade required", 426⟩
/-- http/status/errors.go:67 -/
def ErrPreconditionRequired : HTTPError := ⟨b!"precondition required", 428⟩
/-- http/status/errors.go:68 -/
def ErrTooManyRequests : HTTPError := ⟨b!"too many requests", 429⟩
/-- http/status/errors.go:69 -/
def ErrUnavailableForLegalReasons : HTTPError := ⟨b!"unavailable for legal reasons", 451⟩
/-- http/status/errors.go:70 -/
def ErrBadGateway : HTTPError := ⟨b!"bad gateway", 502⟩
/-- http/status/errors.go:71 -/
def ErrServiceUnavailable : HTTPError := ⟨b!"service unavailable", 503⟩
/-- http/status/errors.go:72 -/
def ErrGatewayTimeout : HTTPError := ⟨b!"gateway timeout", 504⟩
/-- http/status/errors.go:73 -/
def ErrVariantAlsoNegotiates : HTTPError := ⟨b!"variant also negotiates", 506⟩
/-- http/status/errors.go:74 -/
def ErrInsufficientStorage : HTTPError := ⟨b!"insufficient storage", 507⟩
/-- http/status/errors.go:75 -/
def ErrLoopDetected : HTTPError := ⟨b!"loop detected", 508⟩
/-- http/status/errors.go:76 -/
def ErrNotExtended : HTTPError := ⟨b!"not extended", 510⟩
/-- http/status/errors.go:77 -/
def ErrNetworkAuthenticationRequired : HTTPError := ⟨b!"network authentication required", 511⟩

end Indigo.Status
