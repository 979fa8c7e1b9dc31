/-
Specification: what a client may send after its last well-formed request, and what becomes of it.
-/
import Verif.Spec.Cut
import Verif.Spec.Outcome

namespace Indigo.Spec
open Serve (Visit Ended Setup)
variable {σ ρ : Type}

/-- The kinds of what comes after the last well-formed request. -/
inductive Kind
  /-- nothing, or a head which is not finished -/
  | unfinished
  /-- a head with a fault -/
  | faulty (e : Status.HTTPError)
  /-- a head with a too long request line -/
  | tooLong
  /-- a head which crashes the server -/
  | crashing
  /-- a head whose body does not come to its end -/
  | last (h : Head) (path given : Bytes)
  /-- a head which announces a chunked body, and something which is not one -/
  | garbled (h : Head) (path given : Bytes)
  /-- something the theorems say nothing about -/
  | outside

/-- After a head which announces the chunked coding there comes `given`, which neither begins with the chunked coding of a body within the limit nor is
the beginning of one. -/
structure GarbledBody (F : Fold) (maxTokens maxBody : Nat) (h : Head) (given : Bytes) : Prop where
  chunked : h.isChunked F maxTokens = true
  none : ∀ chunks coded after, given = coded ++ after → ChunkedCoding chunks coded → maxBody < chunks.flatten.length
  begun : ∀ chunks missing, ChunkedCoding chunks (given ++ missing) → maxBody < chunks.flatten.length

/-- What the theorems say nothing about: request lines which are too long only if
the method is counted (for these it depends on the segmentation whether they are refused), and CR or LF in names. -/
inductive Outside (L : Limits) : Bytes → Prop
  | line (s) : ¬ RequestLineFits L.line s → ¬ (7 ≤ L.line ∧ LongLine L.line s) → Outside L s
  | names (s) : RequestLineFits L.line s → ¬ CleanStream s → Outside L s

/-- `tail` is of this kind. -/
def Kind.Of (F : Fold) (L : Limits) (maxTokens maxBody : Nat) (tail : Bytes) : Kind → Prop
  | unfinished => RequestLineFits L.line tail ∧ CleanStream tail ∧ HeadOpen L tail
  | faulty e => RequestLineFits L.line tail ∧ CleanStream tail ∧ HeadFault L tail e
  | tooLong => 7 ≤ L.line ∧ LongLine L.line tail
  | crashing => RequestLineFits L.line tail ∧ CleanStream tail ∧ HeadCrash L tail
  | last h path given => tail = h.render ++ given ∧ GoodHead L h path ∧ CutBody F maxTokens maxBody h given
  | garbled h path given => tail = h.render ++ given ∧ GoodHead L h path ∧ GarbledBody F maxTokens maxBody h given
  | outside => Outside L tail

/-- The router is called with the request, and its answer is written: unless this was the last request anyway (because the handler panics or hijacks the connection, writing fails, or its body
cannot be discarded), there may be more calls (`vs`), and more may be written (`frames`). What the bytes after the head are taken for then, depends on how the handler has read the body, on the segmentation, and on the decoder (see C96). -/
inductive FirstOf (E : Setup σ ρ) (maxTokens : Nat) (remote : Bytes) (post : List (Bytes × Option GoErr)) (h : Head) (path given : Bytes) :
    Environment → ρ → Serializer → Fields → List (Option GoErr) → List (Visit σ) → List Bytes → Ended → Prop
  | last {env st d pre ws vs frames why} : LastRequest E maxTokens remote post h path given env st d pre ws vs frames why →
      FirstOf E maxTokens remote post h path given env st d pre ws vs frames why
  | more {env st d pre ws seen world f req left w vs frames why} : Announced E maxTokens remote post env h path given seen world →
      Answers E st seen world (some (f, req), left) → left.hijacked = false →
      w = Serializer.write E.F (opening E.F d pre seen).2.1 (opening E.F d pre seen).1 req f { wscript := ws } → w.out = .done none →
      FirstOf E maxTokens remote post h path given env st d pre ws (.request seen world (some (f, req)) left :: vs) (w.client.written ++ frames) why

/-- What is to become of it. -/
def Kind.End (E : Setup σ ρ) (L : Limits) (maxTokens : Nat) (remote tail : Bytes) (post : List (Bytes × Option GoErr)) :
    Kind → Environment → ρ → Serializer → Fields → List (Option GoErr) → List (Visit σ) → List Bytes → Ended → Prop
  | unfinished => Silence E
  | faulty e => Rejection E L maxTokens remote tail e
  | tooLong => fun env st d pre ws vs frames why => ∃ e ∈ longErrors, Rejection E L maxTokens remote tail e env st d pre ws vs frames why
  | crashing => Crash
  | last h path given => LastRequest E maxTokens remote post h path given
  | garbled h path given => FirstOf E maxTokens remote post h path given
  | outside => fun _ _ _ _ _ _ _ _ => True

end Indigo.Spec
