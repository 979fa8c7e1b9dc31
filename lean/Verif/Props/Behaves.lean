/-
What the theorems about whole programs need to know of a router (lemmas).
-/
import Verif.Props.EveryRouter
import Verif.Props.TraceWire

namespace Indigo.Props
open Indigo.Serve Indigo.Spec Indigo.Router Indigo.Spec.Router

section
variable {σ : Type} {text : GoErr → Bytes} {env : Env Act} {ops : List (Op Act)} {rt : Runtime Act}

/-- The router finds routes as `L` says; it does not panic for the requests which `can` be looked up. -/
structure Behaves (F : Fold) (text : GoErr → Bytes) (ops : List (Op Act)) (rt : Runtime Act) (L : Lookup) (can : Request → Prop) : Prop where
  echoes : ∀ (seen : Request) (b : Bytes), Echoed ops L (arriving ops seen) →
    ∃ r', Passed (arriving ops seen) r' ∧ Runtime.onRequest F { rt with traceBuff := b } seen =
      some (pure (traceResponse F Fields.new (b ++ echo (arriving ops seen)), r'), { rt with traceBuff := b ++ echo (arriving ops seen) })
  otherwise : ∀ (seen : Request) (b : Bytes) x, ¬ Echoed ops L (arriving ops seen) → Runtime.onRequest F { rt with traceBuff := b } seen = some x → x.2 = { rt with traceBuff := b }
  calls : ∀ (seen : Request) (b : Bytes), can seen → ¬ Echoed ops L (arriving ops seen) →
    ∃ h r, Chosen F text ops L (arriving ops seen) h r ∧
      Runtime.onRequest F { rt with traceBuff := b } seen = some (h r, { rt with traceBuff := b })

theorem behaves_static {F : Fold} (made : make F text env ops = some rt) (hs : Static ops) : Behaves F text ops rt (.static ops) (fun _ => True) where
  echoes _ b he := program_echoes made (.inl ⟨rfl, hs⟩) b he
  otherwise seen b x hne hx := by
    rw [request_static made hs, if_neg (fun h => hne ((echoed_static ops seen).2 h))] at hx
    obtain ⟨y, -, rfl⟩ := Option.map_eq_some_iff.1 hx
    rfl
  calls _ b _ hne := program_does made _ (.inl ⟨rfl, hs⟩) b hne

theorem behaves_templates {F : Fold} (made : make F text env ops = some rt) {ts} (ht : Templates ops ts) :
    Behaves F text ops rt (.templates ts) (fun seen => ∃ p, (mutated ops seen).Path = SLASH :: p) where
  echoes _ b he := program_echoes made (.inr ⟨ts, rfl, ht⟩) b he
  otherwise seen b x hne hx := by
    rw [(request_vars made ht seen b).2 (fun h => hne ((echoed_templates ht seen).2 h))] at hx
    obtain ⟨y, -, rfl⟩ := Option.map_eq_some_iff.1 hx
    rfl
  calls _ b hp hne := program_does made _ (.inr ⟨ts, rfl, ht, hp⟩) b hne

/-- Every router behaves. -/
theorem behaves_any {F : Fold} (made : make F text env ops = some rt) :
    ∃ L, Looks ops L ∧ Behaves F text ops rt L (fun seen => ¬ (HasVariables ops ∧ (arriving ops seen).Path = [])) := by
  obtain ⟨L, hL, h⟩ := C104_every_router made
  have nonempty : ∀ seen, Echoed ops L (arriving ops seen) → ¬ (HasVariables ops ∧ (arriving ops seen).Path = []) := by
    intro seen ⟨_, route, values, hf, _⟩ ⟨hv, he⟩
    cases hL with
    | static hn => exact hn hv
    | picked _ _ =>
      obtain ⟨t, path, hp, -⟩ := hf
      rw [he] at hp
      cases hp
  refine ⟨L, hL, ⟨fun seen b he => ?_, fun seen b x hne hx => ?_, fun seen b hc hne => ?_⟩⟩
  · rcases (h seen b).2 (nonempty seen he) with ⟨-, route, values, ms, -, -, h1⟩ | ⟨hne, -⟩
    · exact ⟨onRoute (arriving ops seen) values ms, rfl, h1⟩
    · exact absurd he hne
  · by_cases hc : HasVariables ops ∧ (arriving ops seen).Path = []
    · rw [(h seen b).1 hc.1 hc.2] at hx
      cases hx
    · rcases (h seen b).2 hc with ⟨he, -⟩ | ⟨-, hd, r, c1, h1⟩
      · exact absurd he hne
      · rw [h1] at hx
        cases hx
        rfl
  · rcases (h seen b).2 hc with ⟨he, -⟩ | ⟨-, hd, r, c1, h1⟩
    · exact absurd he hne
    · exact ⟨hd, r, c1, h1⟩

/-- All the router remembers of the requests it was called with is what it has echoed. -/
theorem remembers {E : Setup σ (Runtime Act)} (router : E.router = Router.impl E.F .panic) (made : make E.F text env ops = some rt) {L : Lookup} {can : Request → Prop}
    (beh : Behaves E.F text ops rt L can) (history : List Request) :
    routerAfter E rt history = { rt with traceBuff := echoedText ops L history } := by
  have key : ∀ (history : List Request) (b : Bytes), routerAfter E { rt with traceBuff := b } history = { rt with traceBuff := b ++ echoedText ops L history } := by
    intro history
    induction history with
    | nil => intro b; simp [routerAfter, echoedText]
    | cons r history ih =>
      intro b
      rw [routerAfter_cons, router]
      simp only [Router.impl]
      by_cases he : Echoed ops L (arriving ops r)
      · obtain ⟨r', -, h⟩ := beh.echoes r b he
        rw [h, Option.getD_some, ih, echoedText, echoedText, List.filter_cons_of_pos (by simpa using he), List.flatMap_cons, List.append_assoc]
      · have hnil : echoedText ops L (r :: history) = echoedText ops L history := by
          rw [echoedText, echoedText, List.filter_cons_of_neg (by simpa using he)]
        rw [hnil, ← ih b]
        cases hx : Runtime.onRequest E.F { rt with traceBuff := b } r with
        | none => rfl
        | some x => rw [Option.getD_some, beh.otherwise r b x he hx]
  have hb : rt.traceBuff = [] := (built E.F text env ops rt made).buff
  have e : { rt with traceBuff := [] } = rt := by rw [← hb]
  have := key history []
  rw [e] at this
  simpa using this

end
end Indigo.Props
