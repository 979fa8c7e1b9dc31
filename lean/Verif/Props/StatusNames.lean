/-
C51: the predefined codes and errors.
-/
import Verif.Props.Response

namespace Indigo.Props
open Indigo.Spec

/-- The predefined codes, with the phrases registered for what their names say. -/
def namedCodes : List (Status.Code × Bytes) := [
  (Status.Continue, b!"Continue"),
  (Status.SwitchingProtocols, b!"Switching Protocols"),
  (Status.Processing, b!"Processing"),
  (Status.EarlyHints, b!"Early Hints"),
  (Status.OK, b!"OK"),
  (Status.Created, b!"Created"),
  (Status.Accepted, b!"Accepted"),
  (Status.NonAuthoritativeInfo, b!"Non-Authoritative Information"),
  (Status.NoContent, b!"No Content"),
  (Status.ResetContent, b!"Reset Content"),
  (Status.PartialContent, b!"Partial Content"),
  (Status.MultiStatus, b!"Multi-Status"),
  (Status.AlreadyReported, b!"Already Reported"),
  (Status.IMUsed, b!"IM Used"),
  (Status.MultipleChoices, b!"Multiple Choices"),
  (Status.MovedPermanently, b!"Moved Permanently"),
  (Status.Found, b!"Found"),
  (Status.SeeOther, b!"See Other"),
  (Status.NotModified, b!"Not Modified"),
  (Status.UseProxy, b!"Use Proxy"),
  (Status.TemporaryRedirect, b!"Temporary Redirect"),
  (Status.PermanentRedirect, b!"Permanent Redirect"),
  (Status.BadRequest, b!"Bad Request"),
  (Status.Unauthorized, b!"Unauthorized"),
  (Status.PaymentRequired, b!"Payment Required"),
  (Status.Forbidden, b!"Forbidden"),
  (Status.NotFound, b!"Not Found"),
  (Status.MethodNotAllowed, b!"Method Not Allowed"),
  (Status.NotAcceptable, b!"Not Acceptable"),
  (Status.ProxyAuthRequired, b!"Proxy Authentication Required"),
  (Status.RequestTimeout, b!"Request Timeout"),
  (Status.Conflict, b!"Conflict"),
  (Status.Gone, b!"Gone"),
  (Status.LengthRequired, b!"Length Required"),
  (Status.PreconditionFailed, b!"Precondition Failed"),
  (Status.RequestEntityTooLarge, b!"Request Entity Too Large"),
  (Status.RequestURITooLong, b!"Request URI Too Long"),
  (Status.UnsupportedMediaType, b!"Unsupported Media Type"),
  (Status.RequestedRangeNotSatisfiable, b!"Requested Range Not Satisfiable"),
  (Status.ExpectationFailed, b!"Expectation Failed"),
  (Status.Teapot, b!"I'm a teapot"),
  (Status.MisdirectedRequest, b!"Misdirected Request"),
  (Status.UnprocessableEntity, b!"Unprocessable Entity"),
  (Status.Locked, b!"Locked"),
  (Status.FailedDependency, b!"Failed Dependency"),
  (Status.TooEarly, b!"Too Early"),
  (Status.UpgradeRequired, b!"Upgrade Required"),
  (Status.PreconditionRequired, b!"Precondition Required"),
  (Status.TooManyRequests, b!"Too Many Requests"),
  (Status.HeaderFieldsTooLarge, b!"Request Header Fields Too Large"),
  (Status.UnavailableForLegalReasons, b!"Unavailable For Legal Reasons"),
  (Status.InternalServerError, b!"Internal Server Error"),
  (Status.NotImplemented, b!"Not Implemented"),
  (Status.BadGateway, b!"Bad Gateway"),
  (Status.ServiceUnavailable, b!"Service Unavailable"),
  (Status.GatewayTimeout, b!"Gateway Timeout"),
  (Status.HTTPVersionNotSupported, b!"HTTP Version Not Supported"),
  (Status.VariantAlsoNegotiates, b!"Variant Also Negotiates"),
  (Status.InsufficientStorage, b!"Insufficient Storage"),
  (Status.LoopDetected, b!"Loop Detected"),
  (Status.NotExtended, b!"Not Extended"),
  (Status.NetworkAuthenticationRequired, b!"Network Authentication Required")]

/-- The predefined errors which clients may get to see, with the phrases registered for what their names say. -/
def namedErrors : List (Status.HTTPError × Bytes) := [
  (Status.ErrConnectionTimeout, b!"Request Timeout"),
  (Status.ErrBadRequest, b!"Bad Request"),
  (Status.ErrTooLongRequestLine, b!"Bad Request"),
  (Status.ErrURIDecoding, b!"Bad Request"),
  (Status.ErrBadQuery, b!"Bad Request"),
  (Status.ErrNotFound, b!"Not Found"),
  (Status.ErrInternalServerError, b!"Internal Server Error"),
  (Status.ErrNotImplemented, b!"Not Implemented"),
  (Status.ErrMethodNotImplemented, b!"Not Implemented"),
  (Status.ErrMethodNotAllowed, b!"Method Not Allowed"),
  (Status.ErrTooLarge, b!"Request Entity Too Large"),
  (Status.ErrBodyTooLarge, b!"Request Entity Too Large"),
  (Status.ErrRequestEntityTooLarge, b!"Request Entity Too Large"),
  (Status.ErrHeaderFieldsTooLarge, b!"Request Header Fields Too Large"),
  (Status.ErrHeaderKeyTooLarge, b!"Request Header Fields Too Large"),
  (Status.ErrHeaderValueTooLarge, b!"Request Header Fields Too Large"),
  (Status.ErrTooManyHeaders, b!"Request Header Fields Too Large"),
  (Status.ErrRequestHeaderFieldsTooLarge, b!"Request Header Fields Too Large"),
  (Status.ErrURITooLong, b!"Request URI Too Long"),
  (Status.ErrRequestURITooLong, b!"Request URI Too Long"),
  (Status.ErrUnsupportedProtocol, b!"HTTP Version Not Supported"),
  (Status.ErrHTTPVersionNotSupported, b!"HTTP Version Not Supported"),
  (Status.ErrUnauthorized, b!"Unauthorized"),
  (Status.ErrPaymentRequired, b!"Payment Required"),
  (Status.ErrForbidden, b!"Forbidden"),
  (Status.ErrNotAcceptable, b!"Not Acceptable"),
  (Status.ErrProxyAuthRequired, b!"Proxy Authentication Required"),
  (Status.ErrRequestTimeout, b!"Request Timeout"),
  (Status.ErrConflict, b!"Conflict"),
  (Status.ErrGone, b!"Gone"),
  (Status.ErrLengthRequired, b!"Length Required"),
  (Status.ErrPreconditionFailed, b!"Precondition Failed"),
  (Status.ErrUnsupportedMediaType, b!"Unsupported Media Type"),
  (Status.ErrUnsupportedEncoding, b!"Unsupported Media Type"),
  (Status.ErrRequestedRangeNotSatisfiable, b!"Requested Range Not Satisfiable"),
  (Status.ErrExpectationFailed, b!"Expectation Failed"),
  (Status.ErrTeapot, b!"I'm a teapot"),
  (Status.ErrMisdirectedRequest, b!"Misdirected Request"),
  (Status.ErrUnprocessableEntity, b!"Unprocessable Entity"),
  (Status.ErrLocked, b!"Locked"),
  (Status.ErrFailedDependency, b!"Failed Dependency"),
  (Status.ErrTooEarly, b!"Too Early"),
  (Status.ErrUpgradeRequired, b!"Upgrade Required"),
  (Status.ErrPreconditionRequired, b!"Precondition Required"),
  (Status.ErrTooManyRequests, b!"Too Many Requests"),
  (Status.ErrUnavailableForLegalReasons, b!"Unavailable For Legal Reasons"),
  (Status.ErrBadGateway, b!"Bad Gateway"),
  (Status.ErrServiceUnavailable, b!"Service Unavailable"),
  (Status.ErrGatewayTimeout, b!"Gateway Timeout"),
  (Status.ErrVariantAlsoNegotiates, b!"Variant Also Negotiates"),
  (Status.ErrInsufficientStorage, b!"Insufficient Storage"),
  (Status.ErrLoopDetected, b!"Loop Detected"),
  (Status.ErrNotExtended, b!"Not Extended"),
  (Status.ErrNetworkAuthenticationRequired, b!"Network Authentication Required")]

/-- Those of them which have a text of their own. -/
def ownTexts : List (Status.HTTPError × Bytes) := [
  (Status.ErrConnectionTimeout, b!"connection timed out"),
  (Status.ErrTooLongRequestLine, b!"request line is too long"),
  (Status.ErrURIDecoding, b!"invalid URI encoding"),
  (Status.ErrBadQuery, b!"bad URL query"),
  (Status.ErrMethodNotImplemented, b!"request method is not supported"),
  (Status.ErrTooLarge, b!"too large"),
  (Status.ErrBodyTooLarge, b!"request body is too large"),
  (Status.ErrHeaderFieldsTooLarge, b!"too large headers section"),
  (Status.ErrHeaderKeyTooLarge, b!"too large header key"),
  (Status.ErrHeaderValueTooLarge, b!"too large header value"),
  (Status.ErrTooManyHeaders, b!"too many headers"),
  (Status.ErrUnsupportedProtocol, b!"protocol is not supported"),
  (Status.ErrProxyAuthRequired, b!"proxy auth required"),
  (Status.ErrUnsupportedEncoding, b!"content encoding is not supported")]

/-- **C51.** The predefined codes and errors have the codes their names stand for: the reason phrase registered for the code
is the name. The text of an error is this phrase (in whatever case), or one of its own. The three values by which the
server tells a connection to end have a code for which there is no phrase. -/
theorem C51_names :
    (∀ x ∈ namedCodes, phrase x.1 = some x.2) ∧ (∀ x ∈ namedErrors, phrase x.1.Code = some x.2) ∧
    (∀ x ∈ namedErrors, lower x.1.Message = lower x.2 ∨ (x.1, x.1.Message) ∈ ownTexts) ∧
    (∀ x ∈ ownTexts, x.1.Message = x.2) ∧
    (∀ e ∈ [Status.ErrCloseConnection, Status.ErrShutdown, Status.ErrGracefulShutdown],
      e.Code = Status.CloseConnection ∧ phrase e.Code = none) := by
  decide +kernel

end Indigo.Props
