/-
Property C95: handlers may return nil.
-/
import Verif.Model.NilResponse
import Verif.Props.ServeWitness

namespace Indigo.Props
open Indigo.NilResponse Indigo.Serve

/-- A middleware which does not look at the response. -/
def Blind : Bundled → Prop
  | .serverHeader _ => False
  | .logRequests => False
  | _ => True

/-- A handler which returns nil where `h` says so, and the same handler with `request.Respond()` in place of nil. -/
def returningNil (h : Request → Act (Option Fields × Request)) : Router.Handler Maybe := fun req =>
  ExceptT.mk (Act.bind (h req) (fun
    | (some f, req) => .ret (.ok (f, req))
    | (none, req) => .ret (.error req)))

def returningBlank (h : Request → Act (Option Fields × Request)) : Router.Handler Act := fun req =>
  Act.bind (h req) (fun (f, req) => .ret (f.getD Fields.new, req))

theorem act_bind_assoc {α β γ : Type} (x : Act α) (f : α → Act β) (g : β → Act γ) :
    Act.bind (Act.bind x f) g = Act.bind x (fun a => Act.bind (f a) g) := by
  induction x with
  | ret a => rfl
  | body k next ih => simp only [Act.bind]; congr 1; funext r; exact ih r
  | hijack next ih => simp only [Act.bind]; congr 1; funext r; exact ih r
  | read next ih => simp only [Act.bind]; congr 1; funext d e; exact ih d e
  | unread b next ih => simp only [Act.bind]; congr 1
  | write b next ih => simp only [Act.bind]; congr 1; funext r; exact ih r
  | panic => rfl

theorem recovering_bind {α β : Type} (h : Act α) (f : α → β) (x : Act α) :
    Act.bind (Act.recovering h x) (fun a => .ret (f a)) =
      Act.recovering (Act.bind h (fun a => .ret (f a))) (Act.bind x (fun a => .ret (f a))) := by
  induction x with
  | ret a => rfl
  | body k next ih => simp only [Act.bind, Act.recovering]; congr 1; funext r; exact ih r
  | hijack next ih => simp only [Act.bind, Act.recovering]; congr 1; funext r; exact ih r
  | read next ih => simp only [Act.bind, Act.recovering]; congr 1; funext d e; exact ih d e
  | unread b next ih => simp only [Act.bind, Act.recovering]; congr 1
  | write b next ih => simp only [Act.bind, Act.recovering]; congr 1; funext r; exact ih r
  | panic => rfl

/-- The response in place of nil, as a function of the result. -/
def fill : Except Request (Fields × Request) → Fields × Request
  | .ok r => r
  | .error req => (Fields.new, req)

theorem notNil_eq (h : Router.Handler Maybe) (req : Request) : notNil h req = Act.bind (h req).run (fun a => .ret (fill a)) := by
  unfold notNil
  congr 1
  funext a
  cases a <;> rfl

theorem notNil_blind (F : Fold) (text : GoErr → Bytes) (left : Request → Request) (b : Bundled) (hb : Blind b) (next : Router.Handler Maybe) :
    notNil (b.nilable F text left next) = b.plain F text left (notNil next) := by
  funext req
  cases b with
  | redirect src dst =>
    simp only [Bundled.nilable, Bundled.plain, Middleware.redirect, notNil]
    split
    · rfl
    · rfl
  | httpsOnly ps =>
    simp only [Bundled.nilable, Bundled.plain, Middleware.httpsOnly, notNil]
    split
    · rfl
    · split <;> split <;> rfl
  | customContext ctx => rfl
  | recover =>
    rw [notNil_eq]
    show Act.bind (Act.recovering _ (next req).run) _ = Act.recovering _ (notNil next req)
    rw [recovering_bind, notNil_eq]
    rfl
  | serverHeader parts => exact hb.elim
  | logRequests => exact hb.elim

/-- C95, where it holds: behind any middlewares which do not look at the response, returning nil is the same as returning `request.Respond()`. -/
theorem C95_nil_is_blank_partial (F : Fold) (text : GoErr → Bytes) (left : Request → Request) (bs : List Bundled) (hb : ∀ b ∈ bs, Blind b)
    (h : Request → Act (Option Fields × Request)) (req : Request) :
    notNil (Router.compose (returningNil h) (bs.map (Bundled.nilable F text left))) req =
      Router.compose (returningBlank h) (bs.map (Bundled.plain F text left)) req := by
  have base : notNil (returningNil h) = returningBlank h := by
    funext req
    show Act.bind (Act.bind (h req) _) _ = Act.bind (h req) _
    rw [act_bind_assoc]
    congr 1
    funext x
    obtain ⟨f, r⟩ := x
    cases f <;> rfl
  have key : ∀ (bs : List Bundled), (∀ b ∈ bs, Blind b) → ∀ (g : Router.Handler Maybe),
      notNil ((bs.map (Bundled.nilable F text left)).foldl (fun handler middleware => middleware handler) g) =
        (bs.map (Bundled.plain F text left)).foldl (fun handler middleware => middleware handler) (notNil g) := by
    intro bs
    induction bs with
    | nil => intro _ g; rfl
    | cons b bs ih =>
      intro hb g
      simp only [List.map_cons, List.foldl_cons]
      rw [ih (fun x hx => hb x (List.mem_cons_of_mem _ hx)), notNil_blind F text left b (hb b List.mem_cons_self)]
  unfold Router.compose
  rw [← List.map_reverse, ← List.map_reverse, ← base, ← key bs.reverse (fun b hx => hb b (List.mem_reverse.1 hx))]

/-- A handler which returns nil. -/
def returnsNil : Request → Act (Option Fields × Request) := fun r => .ret (none, r)

example : exchange (notNil (returningNil returnsNil)) 0 [b!"GET / HTTP/1.1\r\n\r\n"] =
    ([b!"HTTP/1.1 200 OK\r\nAccept-Encodings: identity\r\nContent-Type: text/html\r\nContent-Length: 0\r\n\r\n"], some .readFailed) := by decide +kernel

example : (∀ b ∈ [Bundled.recover, .customContext [b!"x"], .redirect b!"/a" b!"/b"], Blind b) ∧
    exchange (notNil (Router.compose (returningNil returnsNil) ([Bundled.recover, .customContext [b!"x"], .redirect b!"/a" b!"/b"].map
      (Bundled.nilable Fold.ascii (fun _ => []) id)))) 0 [b!"GET / HTTP/1.1\r\n\r\n"] =
    ([b!"HTTP/1.1 200 OK\r\nAccept-Encodings: identity\r\nContent-Type: text/html\r\nContent-Length: 0\r\n\r\n"], some .readFailed) := by
  refine ⟨by simp [Blind], ?_⟩
  show exchange (notNil (Bundled.recover.nilable Fold.ascii (fun _ => []) id ((Bundled.customContext [b!"x"]).nilable Fold.ascii (fun _ => []) id
    ((Bundled.redirect b!"/a" b!"/b").nilable Fold.ascii (fun _ => []) id (returningNil returnsNil))))) 0 _ = _
  decide +kernel

/-- C95 is false of the code: behind `LogRequests`, a handler which returns nil makes the server panic. -/
theorem C95_log_violation (left : Request → Request) :
    exchange (notNil (Router.compose (returningNil returnsNil) [Bundled.logRequests.nilable Fold.ascii (fun _ => []) left])) 0
      [b!"GET / HTTP/1.1\r\n\r\n"] = ([], some .panicked) := by
  show exchange (notNil (Bundled.logRequests.nilable Fold.ascii (fun _ => []) id (returningNil returnsNil))) 0 _ = _
  decide +kernel

/-- C95 is false of the code: so it does behind `ServerHeader`. -/
theorem C95_server_header_violation (left : Request → Request) :
    exchange (notNil (Router.compose (returningNil returnsNil) [(Bundled.serverHeader []).nilable Fold.ascii (fun _ => []) left])) 0
      [b!"GET / HTTP/1.1\r\n\r\n"] = ([], some .panicked) := by
  show exchange (notNil ((Bundled.serverHeader []).nilable Fold.ascii (fun _ => []) id (returningNil returnsNil))) 0 _ = _
  decide +kernel

end Indigo.Props
