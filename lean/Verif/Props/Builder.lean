/-
Property C52: building a response.
-/
import Verif.Spec.Builder

namespace Indigo.Props
open Indigo.Spec

theorem error_outcome (text : GoErr → Bytes) (f : Fields) (e : GoErr) (codes : List Nat) :
    f.error text (some e) codes = { f with Code := errorCode e codes, Body := (errorBody text e).getD f.Body } := by
  cases e with
  | http e => rfl
  | eof => cases codes <;> rfl
  | other n => cases codes <;> rfl

theorem call_outcome (F : Fold) (text : GoErr → Bytes) (f : Fields) (c : Call) :
    (BadCall F c → c.run F text f = none) ∧ (¬ BadCall F c → c.run F text f = some (outcome F text f [c])) := by
  cases c with
  | header k vs =>
    constructor
    · rintro ⟨rfl, h⟩
      simp only [Call.run, Fields.header]
      cases h1 : F.eq k b!"content-type" with
      | true => simp
      | false => rw [h1] at h; simp at h; simp [h]
    · intro h
      simp only [Call.run, Fields.header]
      cases h1 : F.eq k b!"content-type" with
      | true =>
        cases vs with
        | nil => exact absurd ⟨rfl, Or.inl h1⟩ h
        | cons v vs => simp [outcome, lastOr, setsAttachment, addsHeaders, nextBody, addsCookies, setsStatus, setsType, setsTransfer, setsCode, h1, Fields.contentType]
      | false =>
        cases h2 : F.eq k b!"transfer-encoding" with
        | true =>
          cases vs with
          | nil => exact absurd ⟨rfl, Or.inr h2⟩ h
          | cons v vs => simp [outcome, lastOr, setsAttachment, addsHeaders, nextBody, addsCookies, setsStatus, setsType, setsTransfer, setsCode, h1, h2, Fields.transferEncoding]
        | false =>
          simp [outcome, lastOr, setsAttachment, addsHeaders, nextBody, addsCookies, setsStatus, setsType, setsTransfer, setsCode, h1, h2]
  | error e codes =>
    refine ⟨fun h => h.elim, fun _ => ?_⟩
    cases e with
    | none => simp [Call.run, Fields.error, outcome, lastOr, setsAttachment, addsHeaders, nextBody, addsCookies, setsStatus, setsType, setsTransfer, setsCode]
    | some e =>
      simp only [Call.run, error_outcome]
      simp [outcome, lastOr, setsAttachment, addsHeaders, nextBody, addsCookies, setsStatus, setsType, setsTransfer, setsCode]
  | json out err =>
    refine ⟨fun h => h.elim, fun _ => ?_⟩
    cases err with
    | none => simp [Call.run, Fields.json, Fields.write, Fields.contentType, outcome, lastOr, setsAttachment, addsHeaders, nextBody, addsCookies, setsStatus, setsType, setsTransfer, setsCode]
    | some e =>
      simp only [Call.run, Fields.json, error_outcome]
      simp [Fields.write, Fields.contentType, outcome, lastOr, setsAttachment, addsHeaders, nextBody, addsCookies, setsStatus, setsType, setsTransfer, setsCode]
  | file a =>
    refine ⟨fun h => h.elim, fun _ => ?_⟩
    cases a with
    | noFile => simp [Call.run, Fields.file, Fields.tryFile, error_outcome, errorCode, errorBody, outcome, lastOr, setsAttachment, addsHeaders, nextBody, addsCookies, setsStatus, setsType, setsTransfer, setsCode, Status.ErrNotFound]
    | noStat => simp [Call.run, Fields.file, Fields.tryFile, error_outcome, errorCode, errorBody, outcome, lastOr, setsAttachment, addsHeaders, nextBody, addsCookies, setsStatus, setsType, setsTransfer, setsCode, Status.ErrInternalServerError]
    | directory => simp [Call.run, Fields.file, Fields.tryFile, error_outcome, errorCode, errorBody, outcome, lastOr, setsAttachment, addsHeaders, nextBody, addsCookies, setsStatus, setsType, setsTransfer, setsCode, Status.ErrNotFound]
    | file content size mime =>
      simp [Call.run, Fields.file, Fields.tryFile, Fields.attachment, outcome, lastOr, setsAttachment, addsHeaders, nextBody, addsCookies, setsStatus, setsType, setsTransfer, setsCode]
  | code c => exact ⟨fun h => h.elim, fun _ => by simp [Call.run, Fields.code, outcome, lastOr, setsAttachment, addsHeaders, nextBody, addsCookies, setsStatus, setsType, setsTransfer, setsCode]⟩
  | status c => exact ⟨fun h => h.elim, fun _ => by simp [Call.run, Fields.status, outcome, lastOr, setsAttachment, addsHeaders, nextBody, addsCookies, setsStatus, setsType, setsTransfer, setsCode]⟩
  | contentType c => exact ⟨fun h => h.elim, fun _ => by simp [Call.run, Fields.contentType, outcome, lastOr, setsAttachment, addsHeaders, nextBody, addsCookies, setsStatus, setsType, setsTransfer, setsCode]⟩
  | transferEncoding c => exact ⟨fun h => h.elim, fun _ => by simp [Call.run, Fields.transferEncoding, outcome, lastOr, setsAttachment, addsHeaders, nextBody, addsCookies, setsStatus, setsType, setsTransfer, setsCode]⟩
  | body c => exact ⟨fun h => h.elim, fun _ => by simp [Call.run, Fields.bytes, outcome, lastOr, setsAttachment, addsHeaders, nextBody, addsCookies, setsStatus, setsType, setsTransfer, setsCode]⟩
  | write c => exact ⟨fun h => h.elim, fun _ => by simp [Call.run, Fields.write, outcome, lastOr, setsAttachment, addsHeaders, nextBody, addsCookies, setsStatus, setsType, setsTransfer, setsCode]⟩
  | attachment r n => exact ⟨fun h => h.elim, fun _ => by simp [Call.run, Fields.attachment, outcome, lastOr, setsAttachment, addsHeaders, nextBody, addsCookies, setsStatus, setsType, setsTransfer, setsCode]⟩
  | cookie c => exact ⟨fun h => h.elim, fun _ => by simp [Call.run, Fields.cookie, outcome, lastOr, setsAttachment, addsHeaders, nextBody, addsCookies, setsStatus, setsType, setsTransfer, setsCode]⟩

theorem outcome_cons (F : Fold) (text : GoErr → Bytes) (f : Fields) (c : Call) (cs : List Call) :
    outcome F text (outcome F text f [c]) cs = outcome F text f (c :: cs) := by
  simp [outcome, lastOr]

/-- C52: whatever sequence of methods is called on whatever response, every part of the result is determined by
the calls which are about this part alone (`outcome`): the last code, content type, transfer encoding, reason
phrase and attachment set, the headers and cookies added, in order, and the body last set with what was written
after it. The only panic is a special header without values. -/
theorem C52_calls (F : Fold) (text : GoErr → Bytes) (cs : List Call) : ∀ (f : Fields),
    ((∀ c ∈ cs, ¬ BadCall F c) → runCalls F text f cs = some (outcome F text f cs)) ∧
    ((∃ c ∈ cs, BadCall F c) → runCalls F text f cs = none) := by
  induction cs with
  | nil => intro f; simp [runCalls, outcome, lastOr]
  | cons c cs ih =>
    intro f
    simp only [runCalls]
    constructor
    · intro h
      rw [(call_outcome F text f c).2 (h c (by simp))]
      simp only [Option.bind_some]
      rw [(ih _).1 (fun x hx => h x (List.mem_cons_of_mem _ hx)), outcome_cons]
    · rintro ⟨x, hx, hb⟩
      by_cases hc : BadCall F c
      · rw [(call_outcome F text f c).1 hc]; rfl
      · rw [(call_outcome F text f c).2 hc]
        rcases List.mem_cons.1 hx with rfl | hm
        · exact absurd hb hc
        · exact (ih _).2 ⟨x, hm, hb⟩

/-- C52: `Respond()` starts from a blank response, whatever has been set on it before. -/
theorem C52_respond_blank (F : Fold) (text : GoErr → Bytes) (f₀ f : Fields) (before after : List Call)
    (_ : runCalls F text f₀ before = some f) :
    runCalls F text f.clear after = runCalls F text Fields.new after := rfl

/-- C52: the blank response is `200`, `text/html`, without headers, cookies, body and attachment. -/
theorem C52_blank (f : Fields) : f.clear.Code = 200 ∧ f.clear.ContentType = b!"text/html" ∧ f.clear.Headers = [] ∧
    f.clear.Cookies = [] ∧ f.clear.Body = [] ∧ f.clear.Attachment.content = none ∧ f.clear.TransferEncoding = [] ∧
    f.clear.Status = [] := ⟨rfl, rfl, rfl, rfl, rfl, rfl, rfl, rfl⟩

/-- C52: `Error(err)` gives the code of an HTTP error, and 500 for other errors unless a code is given. -/
theorem C52_error (F : Fold) (text : GoErr → Bytes) (f : Fields) (e : GoErr) :
    ∃ g, runCalls F text f [.error (some e) []] = some g ∧
      g.Code = (match e with | .http h => h.Code | _ => 500) := by
  refine ⟨_, (C52_calls F text _ f).1 (by simp [BadCall]), ?_⟩
  cases e <;> rfl

example :
    runCalls Fold.ascii (fun _ => b!"boom") Fields.new
      [.header b!"X" [b!"1", b!"2"], .code 201, .write b!"a", .header b!"content-TYPE" [b!"text/plain"], .write b!"b",
       .error (some .eof) [418], .cookie [{ Name := b!"n", Value := b!"v" }]] =
    some { Fields.new with
      Headers := [⟨b!"X", b!"1"⟩, ⟨b!"X", b!"2"⟩], Code := 418, Body := b!"boom", ContentType := b!"text/plain",
      Cookies := [{ Name := b!"n", Value := b!"v" }] } := by decide

end Indigo.Props
