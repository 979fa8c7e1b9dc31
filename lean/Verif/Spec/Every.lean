/-
Specification: what a client reads, whatever it sends.
-/
import Verif.Spec.Rejected
import Verif.Spec.Kinds

namespace Indigo.Spec
open Serve (Setup)
variable {σ ρ : Type}

/-- The errors heads are refused with. -/
def headErrors : List Status.HTTPError :=
  [Status.ErrBadRequest, Status.ErrURIDecoding, Status.ErrUnsupportedProtocol, Status.ErrMethodNotImplemented, Status.ErrTooLongRequestLine,
   Status.ErrURITooLong, Status.ErrHeaderFieldsTooLarge, Status.ErrTooManyHeaders]

/-- The request asks for a version of HTTP/1 to be answered in, and this is the first protocol it asks for which the server knows. -/
def asksVersion (r : Request) : Bool := r.Upgrade = Proto.HTTP10 || r.Upgrade = Proto.HTTP11

/-- The version a request is to be answered in. -/
def answeredIn (r : Request) : Proto := if asksVersion r then r.Upgrade else r.Proto

/-- Reading the answer to one request with the method `m`: perhaps an interim response (its code is less than 200), and then the final one; and the bytes after it. -/
def readAnswer (m : Method) (s : Bytes) : Option ((Option Msg × Msg) × Bytes) :=
  match readReply m s with
  | none => none
  | some (a, rest) =>
    if 200 ≤ a.code then some ((none, a), rest)
    else match readReply m rest with
      | none => none
      | some (b, rest) => if 200 ≤ b.code then some ((some a, b), rest) else none

/-- Reading the answers to requests with the given methods: nothing is left over. -/
def readAnswers : List Method → Bytes → Option (List (Option Msg × Msg))
  | [], s => if s = [] then some [] else none
  | m :: ms, s =>
    match readAnswer m s with
    | none => none
    | some (a, rest) => (readAnswers ms rest).map (a :: ·)

/-- The header fields about the protocols of the requests among `rs` which ask for another version: they name the versions the requests are in. (They ought to name those which are switched to,
see `C56_names_old_protocol_violation`, and only those of the last request, see `C56_headers_pile_up_violation`.) -/
def switches (rs : List Request) : List (Bytes × Bytes) :=
  (rs.filter asksVersion).flatMap (fun r => [(b!"Connection", b!"upgrade"), (b!"Upgrade", (versionName r.Proto).getD [])])

/-- The interim response to a request, which comes after requests `history`: there is one exactly if the request asks for another version of HTTP/1. It is in the version of the request, has the code 101 and no body; its
header fields are those about the protocols, some of the default headers, and the type of the content which it has not. -/
def Interim (defaults : List (Bytes × Bytes)) (history : List Request) (seen : Request) : Option Msg → Prop
  | none => asksVersion seen = false
  | some m => asksVersion seen = true ∧ versionName seen.Proto = some m.version ∧ m.code = 101 ∧ m.rest = [] ∧
      ∃ ds : List (Bytes × Bytes), ds.Sublist defaults ∧
        m.fields = (switches (history ++ [seen]) ++ ds ++ [(b!"Content-Type", b!"text/html")]).map (fun kv => (kv.1, stripOWS kv.2))

/-- The messages `a` are the answer to the request `s`, sent after the requests `before`: the router was called with this request, after having been called with those, and its
answer, the response `f`, is what the last message says: code, header fields and body (or attachment) are those of `f`. Its version is the one of the request, unless this asks for another one. -/
def RepliedIn (E : Setup σ ρ) (st : ρ) (defaults : List (Bytes × Bytes)) (before : List Sending) (maxTokens : Nat) (remote : Bytes) (post : List (Bytes × Option GoErr)) (s : Sending)
    (a : Option Msg × Msg) : Prop :=
  ∃ history env after seen world f req left, HeardBefore E maxTokens remote post before history ∧ Delivered E maxTokens remote post env s after seen world ∧
    Answers E (routerAfter E st history) seen world (some (f, req), left) ∧ Interim defaults history seen a.1 ∧
    versionName (answeredIn seen) = some a.2.version ∧ a.2.code = f.Code ∧
    a.2.rest = (if s.head.method = .HEAD then [] else sentBody f) ∧
    SaysFields defaults f a.2.fields

/-- A request after which the connection is to be kept: it asks for a protocol which the server knows (and even if this is one the server cannot switch to), or its header Connection, or the lack of it, says so. -/
def LeavesOpen (h : Head) : Prop :=
  ((h.last b!"upgrade").map Proto.chooseUpgrade).getD Proto.Unknown ≠ Proto.Unknown ∨
  (∀ p, IsVersion h.version p → persists p ((h.last b!"connection").getD []) = true) ∧
    ∀ c ∈ (h.last b!"connection").getD [], isPlainTok c = true

/-- A router whose handlers answer requests as well whose body cannot be read to its end, or is not what the head announces, with responses which say themselves how long they are. They do not panic then, do not hijack the connection,
and leave the method of the request object alone. (`good` restricts the requests.) -/
def AnsweringCut (E : Setup σ ρ) (good : Head → Bytes → Prop) (L : Limits) (maxTokens maxBody : Nat) (defaults : List (Bytes × Bytes)) (st : ρ) : Prop :=
  ∀ history remote post env h path given seen world, good h path → GoodHead L h path →
    CutBody E.F maxTokens maxBody h given ∨ GarbledBody E.F maxTokens maxBody h given →
    Announced E maxTokens remote post env h path given seen world →
    ∃ f req' left, Answers E (routerAfter E st history) seen world (some (f, req'), left) ∧
      left.hijacked = false ∧ Readable defaults (answeredIn seen) f ∧ req'.Method = seen.Method

/-- The messages `a` are the answer to the request with the head `h`, the body of which cannot be read to its end (`given` is what comes after the head), sent after the requests `before`: as `RepliedIn`. -/
def RepliedCut (E : Setup σ ρ) (st : ρ) (defaults : List (Bytes × Bytes)) (before : List Sending) (maxTokens : Nat) (remote : Bytes)
    (post : List (Bytes × Option GoErr)) (h : Head) (path given : Bytes) (a : Option Msg × Msg) : Prop :=
  ∃ history env seen world f req left, HeardBefore E maxTokens remote post before history ∧
    Announced E maxTokens remote post env h path given seen world ∧
    Answers E (routerAfter E st history) seen world (some (f, req), left) ∧ Interim defaults history seen a.1 ∧
    versionName (answeredIn seen) = some a.2.version ∧ a.2.code = f.Code ∧
    a.2.rest = (if h.method = .HEAD then [] else sentBody f) ∧
    SaysFields defaults f a.2.fields

/-- What is written because of what the client sends after its well-formed requests `before`. After nothing, an unfinished head or a head which crashes the server there is nothing.
A head with a fault, in which a method is named, and a request whose body cannot be read to its end are answered, and the answer can be read. (Faults of the
version are left out, see `C32_no_version_violation`, and so are request lines whose length is noticed already in the method, see `C32_stale_method_violation` for why.) A request which announces a chunked body, and after which there is something else, is
answered as well; there may come more after this answer (see C96). -/
def Kind.Reads (E : Setup σ ρ) (st : ρ) (defaults : List (Bytes × Bytes)) (before : List Sending) (L : Limits) (maxTokens : Nat) (remote tail : Bytes)
    (post : List (Bytes × Option GoErr)) (written : Bytes) : Kind → Prop
  | unfinished => written = []
  | crashing => written = []
  | faulty e => e ≠ Status.ErrUnsupportedProtocol → ∀ meth, NamesMethod tail meth →
      ∃ m, readAnswers [meth] written = some [(none, m)] ∧ Refused E st defaults before L maxTokens remote post tail meth e m
  | tooLong => ∃ e ∈ longErrors, e ≠ Status.ErrTooLongRequestLine → ∀ meth, NamesMethod tail meth →
      ∃ m, readAnswers [meth] written = some [(none, m)] ∧ Refused E st defaults before L maxTokens remote post tail meth e m
  | last h path given => ∃ a, readAnswers [h.method] written = some [a] ∧ RepliedCut E st defaults before maxTokens remote post h path given a
  | garbled h path given => ∃ a rest, readAnswer h.method written = some (a, rest) ∧ RepliedCut E st defaults before maxTokens remote post h path given a
  | outside => True

end Indigo.Spec
