/-
C75 Panicking handlers behind Recover.
C76 Requests in logs.
-/
import Verif.Model.Recover
import Verif.Proofs.PathSeen
import Verif.Props.RootMiddlewares
import Verif.Props.Escape
import Verif.Props.ServeWitness

namespace Indigo.Props
open Indigo.Router Indigo.Spec.Router Indigo.Spec.Virtual Indigo.Serve

/-! ### C75 -/

section
variable {σ : Type} (P : ChunkedParser σ) (maxAlloc : Nat)

private theorem run_recovering {α : Type} (h : α) (x : Act α) : ∀ w : Act.World σ,
    (Act.recovering (.ret h) x).run P maxAlloc w =
      (some ((x.run P maxAlloc w).1.getD h), (x.run P maxAlloc w).2) := by
  induction x with
  | ret a => intro w; rfl
  | body k next ih => intro w; exact ih _ _
  | hijack next ih => intro w; exact ih _ _
  | read next ih => intro w; simp only [Act.recovering, Act.run]; split <;> exact ih _ _ _
  | unread b next ih => intro w; exact ih _
  | write b next ih => intro w; simp only [Act.recovering, Act.run]; split <;> exact ih _ _
  | panic => intro w; rfl

/-- **C75 (part).** Behind `Recover`, a handler which does not panic is not affected: neither its answer nor what it
does to the connection. -/
theorem C75_transparent (text : GoErr → Bytes) (left : Request → Request) (next : Router.Handler Act) (req : Request)
    (w w' : Act.World σ) (answer : Fields × Request) (h : (next req).run P maxAlloc w = (some answer, w')) :
    (Middleware.recover text left next req).run P maxAlloc w = (some answer, w') := by
  rw [Middleware.recover, run_recovering, h]; rfl

/-- **C75 (part).** If it panics, the answer is 500, and the connection is what the handler left. -/
theorem C75_panic_is_500 (text : GoErr → Bytes) (left : Request → Request) (next : Router.Handler Act) (req : Request)
    (w w' : Act.World σ) (h : (next req).run P maxAlloc w = (none, w')) :
    ∃ f, (Middleware.recover text left next req).run P maxAlloc w = (some (f, left req), w') ∧ f.Code = 500 := by
  refine ⟨_, by rw [Middleware.recover, run_recovering, h]; rfl, rfl⟩

end

/-- A call of the router which did not panic. -/
def Survived {σ : Type} : Visit σ → Prop
  | .request _ _ answer _ => answer ≠ none
  | .error _ _ answer _ => answer ≠ none

theorem normalize_ne (s : Bytes) (h : s ≠ []) : UriNormalize.normalize s ≠ [] := by
  have : ∀ i, UriNormalize.loop s i ≠ [] := by
    intro i
    induction i with
    | zero => exact h
    | succ i ih =>
      cases i with
      | zero => exact h
      | succ i =>
        rw [UriNormalize.loop]
        split
        · cases s with
          | nil => exact absurd rfl h
          | cons c cs => simp
        · exact ih
  exact this _

theorem arriving_path {ops : List (Op Act)} {req : Request} (h : (mutated ops req).Path ≠ []) :
    (arriving ops req).Path ≠ [] := normalize_ne _ h

/-- **C75 (part).** If `Recover` is the first middleware of the root of the router, then on every connection, for
everything a client sends in whatever pieces, no call of the router panics, whatever the handlers and the other
middlewares do. (Mutators are not inside of middlewares. They are total functions here, and must not make a path
empty.) -/
theorem C75_connection {σ : Type} {F : Fold} {text : GoErr → Bytes} {env : Env Act} {ops : List (Op Act)}
    {rt : Runtime Act} (hm : make F text env ops = some rt)
    (text' : GoErr → Bytes) (left : Request → Request) (rest : List (Router.Middleware Act))
    (first : uses ops 0 = Middleware.recover text' left :: rest)
    (mutators : ∀ req, req.Path ≠ [] → (mutated ops req).Path ≠ [])
    (E : Setup σ (Runtime Act)) (hE : E.router = Router.impl F .panic)
    (cfg : Config) (enc : EncToken) (remote : Bytes) (client : Client) :
    ∀ v ∈ (serve E (newConn E.P cfg enc remote rt client)).1.visits, Survived v := by
  have hI : ∀ (history : List Event) (h : Handler Act) (r : Request) (w : Act.World σ),
      (((wrap (uses ops 0) h) r).run E.P E.maxAlloc w).1 ≠ none := by
    intro history h r w
    rw [first]
    show ((Middleware.recover text' left (wrap rest h) r).run E.P E.maxAlloc w).1 ≠ none
    rw [Middleware.recover, run_recovering]
    simp
  have key := serve_keeps (E := E)
    (fun r vs => (∃ history, r = after E.router rt history) ∧ ∀ v ∈ vs, Survived v) ?_ ?_
    (newConn E.P cfg enc remote rt client) (.inl rfl) ⟨⟨[], rfl⟩, by simp [newConn]⟩
  · exact key.2
  · rintro c hpath ⟨⟨history, hr⟩, hv⟩
    have h1 : (E.router.onRequest c.router c.req).2 = after E.router rt (history ++ [.request c.req]) := by
      rw [hr]; simp [Spec.Virtual.after, next]
    have h2 : ((E.router.onRequest c.router c.req).1.run E.P E.maxAlloc c.world).1 ≠ none := by
      rw [hr, hE]
      rcases C74_requests_partial hm .panic history c.req with ⟨h, r, -, h1⟩ | ⟨-, f, r, -, h1⟩ | ⟨h1, -⟩
      · rw [h1]; exact hI history h r _
      · rw [h1]; intro h; cases h
      · exact absurd h1 (arriving_path (mutators _ hpath))
    refine ⟨⟨history ++ [.request c.req], ?_⟩, ?_⟩
    · rw [← h1]; unfold onRequest; dsimp only; split <;> rfl
    · intro v hvm
      unfold onRequest at hvm
      dsimp only at hvm
      split at hvm
      · rcases List.mem_append.1 hvm with hvm | hvm
        · exact hv v hvm
        · rw [List.mem_singleton.1 hvm]; simp [Survived]
      · rename_i heq
        rcases List.mem_append.1 hvm with hvm | hvm
        · exact hv v hvm
        · rw [List.mem_singleton.1 hvm]
          rw [heq] at h2
          exact absurd rfl h2
  · rintro c e ⟨⟨history, hr⟩, hv⟩
    have h1 : (E.router.onError c.router c.req e).2 = after E.router rt (history ++ [.error c.req e]) := by
      rw [hr]; simp [Spec.Virtual.after, next]
    have h2 : ((E.router.onError c.router c.req e).1.run E.P E.maxAlloc c.world).1 ≠ none := by
      rw [hr, hE]
      rcases C74_any_error hm .panic history c.req e with ⟨h, r, -, h1⟩ | ⟨f, r, h1⟩
      · rw [h1]; exact hI history h r _
      · rw [h1]; intro h; cases h
    refine ⟨⟨history ++ [.error c.req e], ?_⟩, ?_⟩
    · rw [← h1]; unfold onError; dsimp only; split <;> rfl
    · intro v hvm
      unfold onError at hvm
      dsimp only at hvm
      split at hvm
      · rcases List.mem_append.1 hvm with hvm | hvm
        · exact hv v hvm
        · rw [List.mem_singleton.1 hvm]; simp [Survived]
      · rename_i heq
        rw [heq] at h2
        exact absurd rfl h2

/-! A router of panicking handlers. -/

private def broken : Handler Act := fun _ => .body .bytes (fun _ => .panic)

private def fragile : List (Op Act) :=
  [.use 0 [Middleware.recover (fun _ => b!"oops") id], .route 0 .GET b!"/a" broken []]

example : uses fragile 0 = [Middleware.recover (fun _ => b!"oops") id] ∧
    (make sampleFold (fun _ => []) sampleEnv fragile).isSome = true := ⟨rfl, by decide +kernel⟩

/-- Without `Recover` the panic ends the connection, with it the client reads a response and can send more requests. -/
example : exchange broken 0 [b!"GET / HTTP/1.1\r\n\r\n"] = ([], some .panicked) ∧
    exchange (Middleware.recover (fun _ => b!"oops") id broken) 0
      [b!"GET / HTTP/1.1\r\n\r\n", b!"GET / HTTP/1.1\r\n\r\n"] = ([
      b!"HTTP/1.1 500 Internal Server Error\r\nAccept-Encodings: identity\r\nContent-Type: text/html\r\nContent-Length: 0\r\n\r\n",
      b!"HTTP/1.1 500 Internal Server Error\r\nAccept-Encodings: identity\r\nContent-Type: text/html\r\nContent-Length: 0\r\n\r\n"],
      some .readFailed) := by decide +kernel

/-! ### C76 -/

section
variable {L : Type}

/-- Handlers which write lines to logs: all lines so far, with the log they are in. -/
abbrev Journal (L : Type) := StateM (List (L × Bytes))

/-- Writing to a log. -/
def note : L → Bytes → Journal L Unit := fun log line => modify (fun j => j ++ [(log, line)])

private theorem forM_note (loggers : List L) (line : Bytes) (j : List (L × Bytes)) :
    (loggers.forM (fun l => note l line)).run j = pure ((), j ++ loggers.map (fun l => (l, line))) := by
  induction loggers generalizing j with
  | nil => simp
  | cons l ls ih =>
    have : ((l :: ls).forM (fun l => note l line)).run j = (ls.forM (fun l => note l line)).run (j ++ [(l, line)]) := rfl
    rw [this, ih]; simp

/-- **C76 (part).** `LogRequests` does not change the answer. After whatever the handler itself has logged, each
logger (the standard one if there is none) gets exactly one line with the method, the path and the status code;
nothing is logged if the connection has been closed. -/
theorem C76_one_line (standard : L) (loggers : List L) (next : Handler (Journal L)) (req : Request) (j : List (L × Bytes)) :
    let logs := if loggers = [] then [standard] else loggers
    let ((resp, req'), j') := (next req).run j
    (Middleware.logRequests note standard loggers next req).run j =
      ((resp, req'), j' ++ if resp.Code = 439 then [] else
        logs.map (fun l => (l, req'.Method.toBytes ++ b!" " ++ Escape.Escape req'.Path ++ b!" " ++ decBytes resp.Code))) := by
  have hl : Middleware.loggersOr standard loggers = if loggers = [] then [standard] else loggers := by
    unfold Middleware.loggersOr
    cases loggers <;> simp
  cases hn : (next req).run j with
  | mk a j' =>
    obtain ⟨resp, req'⟩ := a
    dsimp only
    have e : (Middleware.logRequests note standard loggers next req).run j =
        (if resp.Code = Status.CloseConnection then (pure (resp, req') : Journal L _) else do
          (Middleware.loggersOr standard loggers).forM (fun logger => note logger
            (req'.Method.toBytes ++ b!" " ++ Escape.Escape req'.Path ++ b!" " ++ decBytes resp.Code))
          pure (resp, req')).run j' := by
      show (StateT.run (do
          let (response, request) ← next req
          if response.Code = Status.CloseConnection then pure (response, request)
          else do
            (Middleware.loggersOr standard loggers).forM (fun logger => note logger
              (request.Method.toBytes ++ b!" " ++ Escape.Escape request.Path ++ b!" " ++ decBytes response.Code))
            pure (response, request)) j) = _
      rw [StateT.run_bind, hn]; rfl
    rw [e, hl]
    by_cases hc : resp.Code = 439
    · rw [if_pos (show resp.Code = Status.CloseConnection from hc), if_pos hc]
      simp; rfl
    · rw [if_neg (show ¬ resp.Code = Status.CloseConnection from hc), if_neg hc]
      rw [StateT.run_bind, forM_note]
      rfl

/-- **C76 (part).** Lines cannot be forged: whatever the path of a request, the line has no control characters, in
particular no line breaks. -/
theorem C76_no_forged_lines (method : Method) (path : Bytes) (code : Nat) :
    ∀ c ∈ method.toBytes ++ b!" " ++ Escape.Escape path ++ b!" " ++ decBytes code,
      Printable c ∨ (0x80 ≤ c.toNat ∧ c.toNat ≤ 0xBF) := by
  intro c hc
  have hsp : Printable (32 : Byte) := by simp [Printable]
  simp only [List.mem_append] at hc
  rcases hc with (((h | h) | h) | h) | h
  · left
    have : ∀ m : Method, ∀ c ∈ m.toBytes, Printable c := by
      intro m; cases m <;> (simp only [Printable]; decide +kernel)
    exact this _ _ h
  · left; rw [List.mem_singleton.1 h]; exact hsp
  · exact C53_no_control_characters_partial path c h
  · left; rw [List.mem_singleton.1 h]; exact hsp
  · left
    obtain ⟨h1, h2⟩ := decBytes_digits code c h
    have h1 := UInt8.le_iff_toNat_le.1 h1
    have h2 := UInt8.le_iff_toNat_le.1 h2
    simp only [Printable]
    simp at h1 h2
    omega

/-- **C76 (part).** The mutator `RequestsLog`: one line per logger, the request is passed on as it is. -/
theorem C76_mutator (standard : L) (loggers : List L) (req : Request) (j : List (L × Bytes)) :
    let logs := if loggers = [] then [standard] else loggers
    (Middleware.requestsLog note standard loggers req).run j =
      (req, j ++ logs.map (fun l => (l, req.Method.toBytes ++ b!" " ++ Escape.Escape req.Path))) := by
  have hl : Middleware.loggersOr standard loggers = if loggers = [] then [standard] else loggers := by
    unfold Middleware.loggersOr
    cases loggers <;> simp
  dsimp only
  rw [← hl]
  unfold Middleware.requestsLog
  rw [StateT.run_bind, forM_note]
  rfl

end

/-- Two loggers and a path with a line break. -/
example : ((Middleware.logRequests note 0 [1, 2] (fun req => pure (Fields.new.code 404, req))
    { Method := .GET, Path := b!"/a\nGET /b 200" }).run []).2 =
    [(1, b!"GET /a\\nGET /b 200 404"), (2, b!"GET /a\\nGET /b 200 404")] := by decide +kernel

/-! ### Requests which cannot be read -/

/-- A handler inside of `LogRequests`. The lines it logs are shown to the client, for once, in headers of the response. -/
def logged (h : Handler (Journal Unit)) : Handler Act := fun req =>
  let ((f, req), lines) := (Middleware.logRequests note () [] h req).run []
  pure ({ f with Headers := f.Headers ++ lines.map (fun l => ⟨b!"Log", l.2⟩) }, req)

/-- A handler, and what the default error handler (router/inbuilt/defaulterrhandlers.go:15-17) does for an unknown method. -/
def fine : Handler (Journal Unit) := fun r => pure (Fields.new, r)
def notImplemented : Handler (Journal Unit) := fun r => pure (Fields.new.error (fun _ => []) (some (.http Status.ErrMethodNotImplemented)) [], r)

/-- **C76** is false of requests which cannot be read: a request with an unknown method is logged with the path of the request before it. -/
theorem C76_stale_path_violation :
    let r := serve simple (newConn simple.P Config.default 0 b!"1.2.3.4" ⟨logged fine, logged notImplemented⟩
      (arrive [b!"GET /secret HTTP/1.1\r\n\r\n", b!"GOT /other HTTP/1.1\r\n\r\n"]))
    r.1.client.written.map (fun b => ((Spec.readMsg b).map (fun m => m.fields.lookup b!"Log"))) =
      [some (some b!"GET /secret 200"), some (some b!"Unknown /secret 501")] := by
  decide +kernel

/-- An error handler which shows the path of what has failed, for error pages say. -/
def showPath : Handler Act := fun r => pure ((Fields.new.code 400).bytes (r.Path ++ b!" not understood"), r)

/-- **C23** is false of error handlers: the one which is called for a malformed request sees the path of the request before it. -/
theorem C23_stale_path_violation :
    let r := serve simple (newConn simple.P Config.default 0 b!"1.2.3.4" ⟨report, showPath⟩
      (arrive [b!"GET /secret HTTP/1.1\r\n\r\n", b!"GOT /other HTTP/1.1\r\n\r\n"]))
    (r.1.client.written.map (fun b => b.drop (b.length - 22))).getLast? = some b!"/secret not understood" := by
  decide +kernel

end Indigo.Props
