/-
C78 The router does not crash.
-/
import Verif.Props.Recover

namespace Indigo.Props
open Indigo.Router Indigo.Spec.Router Indigo.Spec.Virtual Indigo.Serve

/-- **C78 (part).** A router which could be built has an answer for every request with a path, after every history: it
does not panic. -/
theorem C78_total {m : Type → Type} [Monad m] {F : Fold} {text : GoErr → Bytes} {env : Env m} {ops : List (Op m)}
    {rt : Runtime m} (hm : make F text env ops = some rt) (panicked : m (Fields × Request))
    (history : List Event) (req : Request) (hp : (arriving ops req).Path ≠ []) :
    (Spec.Virtual.after (Router.impl F panicked) rt history).onRequest F req ≠ none := by
  obtain ⟨b, hh⟩ := history_buff hm panicked history
  rw [hh]
  rcases request_known hm (C41_always_one F text ops) b req with ⟨_, _, _, _, h⟩ | ⟨_, _, _, _, _, h⟩ | ⟨h, _, _⟩
  · rw [h]; simp
  · rw [h]; simp
  · exact absurd h hp

/-- **C78 (part).** On a connection the router is asked for requests with a path only: whatever a client sends in
whatever pieces, and whatever the handlers do, no call of the router panics before a handler is called. (If no mutator
makes a path empty, see below.) -/
theorem C78_connection_partial {σ : Type} {F : Fold} {text : GoErr → Bytes} {env : Env Act} {ops : List (Op Act)}
    {rt : Runtime Act} (hm : make F text env ops = some rt)
    (mutators : ∀ req, req.Path ≠ [] → (mutated ops req).Path ≠ [])
    (E : Setup σ (Runtime Act)) (hE : E.router = Router.impl F .panic)
    (cfg : Config) (enc : EncToken) (remote : Bytes) (client : Client) :
    ∀ v ∈ (serve E (newConn E.P cfg enc remote rt client)).1.visits, ∀ seen world answer left,
      v = .request seen world answer left →
      seen.Path ≠ [] ∧
      ∃ history, (Spec.Virtual.after E.router rt history).onRequest F seen ≠ none ∧
        (Act.run E.P E.maxAlloc (E.router.onRequest (Spec.Virtual.after E.router rt history) seen).1
          { body := world.1, client := world.2, hijacked := seen.wasHijacked }) = (answer, left) := by
  have key := serve_keeps (E := E)
    (fun r vs => (∃ history, r = Spec.Virtual.after E.router rt history) ∧
      ∀ v ∈ vs, ∀ seen world answer left, v = .request seen world answer left → seen.Path ≠ [] ∧
        ∃ history, (Act.run E.P E.maxAlloc (E.router.onRequest (Spec.Virtual.after E.router rt history) seen).1
          { body := world.1, client := world.2, hijacked := seen.wasHijacked }) = (answer, left)) ?_ ?_
    (newConn E.P cfg enc remote rt client) (.inl rfl) ⟨⟨[], rfl⟩, by simp [newConn]⟩
  · intro v hv seen world answer left he
    obtain ⟨h1, history, h2⟩ := key.2 v hv seen world answer left he
    exact ⟨h1, history, hE ▸ C78_total hm .panic history seen (arriving_path (mutators _ h1)), h2⟩
  · rintro c hpath ⟨⟨history, hr⟩, hv⟩
    have h1 : (E.router.onRequest c.router c.req).2 = Spec.Virtual.after E.router rt (history ++ [.request c.req]) := by
      rw [hr]; simp [Spec.Virtual.after, next]
    refine ⟨⟨history ++ [.request c.req], ?_⟩, ?_⟩
    · rw [← h1]; unfold onRequest; dsimp only; split <;> rfl
    · intro v hvm seen world answer left he
      unfold onRequest at hvm
      dsimp only at hvm
      split at hvm
      · rename_i f req w heq
        rcases List.mem_append.1 hvm with hvm | hvm
        · exact hv v hvm seen world answer left he
        · rw [List.mem_singleton.1 hvm] at he
          cases he
          refine ⟨hpath, history, ?_⟩
          rw [← hr]; exact heq
      · rename_i w heq
        rcases List.mem_append.1 hvm with hvm | hvm
        · exact hv v hvm seen world answer left he
        · rw [List.mem_singleton.1 hvm] at he
          cases he
          refine ⟨hpath, history, ?_⟩
          rw [← hr]; exact heq
  · rintro c e ⟨⟨history, hr⟩, hv⟩
    have h1 : (E.router.onError c.router c.req e).2 = Spec.Virtual.after E.router rt (history ++ [.error c.req e]) := by
      rw [hr]; simp [Spec.Virtual.after, next]
    refine ⟨⟨history ++ [.error c.req e], ?_⟩, ?_⟩
    · rw [← h1]; unfold onError; dsimp only; split <;> rfl
    · intro v hvm seen world answer left he
      unfold onError at hvm
      dsimp only at hvm
      split at hvm
      all_goals
        rcases List.mem_append.1 hvm with hvm | hvm
        · exact hv v hvm seen world answer left he
        · rw [List.mem_singleton.1 hvm] at he
          cases he

/-- C78 is false: an alias with an empty target is accepted, and makes a router with parameters in paths panic when
the source is requested. -/
theorem C78_empty_alias_violation :
    (make (m := Id) sampleFold (fun _ => []) sampleEnv
      [.alias 0 b!"/home" [], .route 0 .GET b!"/users/{id}" (fun req => (Fields.new, req)) []]).map
        (fun rt => (rt.onRequest sampleFold { Method := .GET, Path := b!"/home" }).isNone) = some true := by
  decide +kernel

/-- Others are answered by the same router. -/
example : (make (m := Id) sampleFold (fun _ => []) sampleEnv
      [.alias 0 b!"/home" [], .route 0 .GET b!"/users/{id}" (fun req => (Fields.new, req)) []]).map
        (fun rt => (rt.onRequest sampleFold { Method := .GET, Path := b!"/users/5" }).isNone) = some false := by
  decide +kernel

end Indigo.Props
