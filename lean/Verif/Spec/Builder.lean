/-
Sequences of calls to the methods of a response, and what they should amount to.
-/
import Verif.Model.Response

namespace Indigo.Spec

/-- A call to a method of a response. -/
inductive Call
  | code (c : Nat)
  | status (s : Bytes)
  | contentType (v : Bytes)
  | transferEncoding (v : Bytes)
  | header (k : Bytes) (vs : List Bytes)
  /-- `String`, `Bytes` -/
  | body (b : Bytes)
  | write (b : Bytes)
  | attachment (r : Reader) (size : Int)
  | cookie (cs : List Cookie)
  | error (e : Option GoErr) (codes : List Nat)
  /-- `JSON`, with the text and the error of the encoder -/
  | json (out : Bytes) (err : Option GoErr)
  /-- `File`, with the answer of the file system -/
  | file (a : Fields.FileAnswer)

/-- The effect of a call; `none` is a panic. -/
def Call.run (F : Fold) (text : GoErr → Bytes) (f : Fields) : Call → Option Fields
  | .code c => some (f.code c)
  | .status s => some (f.status s)
  | .contentType v => some (f.contentType v)
  | .transferEncoding v => some (f.transferEncoding v)
  | .header k vs => f.header F k vs
  | .body b => some (f.bytes b)
  | .write b => some (f.write b)
  | .attachment r n => some (f.attachment (some r) n)
  | .cookie cs => some (f.cookie cs)
  | .error e codes => some (f.error text e codes)
  | .json out err => some (f.json text out err)
  | .file a => some (f.file text a)

/-- A sequence of calls. -/
def runCalls (F : Fold) (text : GoErr → Bytes) (f : Fields) : List Call → Option Fields
  | [] => some f
  | c :: cs => (c.run F text f).bind (fun f => runCalls F text f cs)

/-- The code an error stands for. -/
def errorCode : GoErr → List Nat → Nat
  | .http e, _ => e.Code
  | _, c :: _ => c
  | _, [] => 500

/-- The text an error leaves as the body. -/
def errorBody (text : GoErr → Bytes) : GoErr → Option Bytes
  | .http _ => none
  | e => some (text e)

/-- Which code a call sets. -/
def setsCode : Call → Option Nat
  | .code c => some c
  | .error (some e) codes => some (errorCode e codes)
  | .json _ (some e) => some (errorCode e [])
  | .file .noFile => some 404
  | .file .directory => some 404
  | .file .noStat => some 500
  | _ => none

/-- Which content type a call sets. -/
def setsType (F : Fold) : Call → Option Bytes
  | .contentType v => some v
  | .header k vs => if F.eq k b!"content-type" then vs.head? else none
  | .json _ _ => some b!"application/json"
  | .file (.file _ _ mime) => some (if mime = [] then b!"application/octet-stream" else mime)
  | _ => none

/-- Which transfer encoding a call sets. -/
def setsTransfer (F : Fold) : Call → Option Bytes
  | .transferEncoding v => some v
  | .header k vs => if !F.eq k b!"content-type" && F.eq k b!"transfer-encoding" then vs.head? else none
  | _ => none

/-- Which headers a call adds. -/
def addsHeaders (F : Fold) : Call → List Pair
  | .header k vs => if F.eq k b!"content-type" || F.eq k b!"transfer-encoding" then [] else vs.map (fun v => ⟨k, v⟩)
  | _ => []

/-- Which cookies a call adds. -/
def addsCookies : Call → List Cookie
  | .cookie cs => cs
  | _ => []

/-- What a call makes of the body. -/
def nextBody (text : GoErr → Bytes) (b : Bytes) : Call → Bytes
  | .body b' => b'
  | .write b' => b ++ b'
  | .error (some e) _ => (errorBody text e).getD b
  | .json out none => out
  | .json out (some e) => (errorBody text e).getD out
  | _ => b

/-- Which attachment a call sets. -/
def setsAttachment : Call → Option Attachment
  | .attachment r n => some ⟨some r, n⟩
  | .file (.file content size _) => some ⟨some content, size⟩
  | _ => none

/-- Which reason phrase a call sets. -/
def setsStatus : Call → Option Bytes
  | .status s => some s
  | _ => none

/-- The last thing set, or else the default. -/
def lastOr {α : Type} (dflt : α) (xs : List (Option α)) : α := xs.foldl (fun a x => x.getD a) dflt

/-- What a sequence of calls should make of a response. -/
def outcome (F : Fold) (text : GoErr → Bytes) (f : Fields) (cs : List Call) : Fields :=
  { Attachment := lastOr f.Attachment (cs.map setsAttachment)
    Headers := f.Headers ++ cs.flatMap (addsHeaders F)
    Body := cs.foldl (nextBody text) f.Body
    Cookies := f.Cookies ++ cs.flatMap addsCookies
    Status := lastOr f.Status (cs.map setsStatus)
    ContentType := lastOr f.ContentType (cs.map (setsType F))
    TransferEncoding := lastOr f.TransferEncoding (cs.map (setsTransfer F))
    Code := lastOr f.Code (cs.map setsCode) }

/-- A call which panics: one of the two special headers without values. -/
def BadCall (F : Fold) : Call → Prop
  | .header k vs => vs = [] ∧ (F.eq k b!"content-type" = true ∨ F.eq k b!"transfer-encoding" = true)
  | _ => False

end Indigo.Spec
