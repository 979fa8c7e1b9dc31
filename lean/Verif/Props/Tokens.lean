/-
Properties C15 (methods), C16 (protocol versions), C56 (upgrade tokens).
-/
import Verif.Proofs.Tokens
import Verif.Proofs.Proto

namespace Indigo.Props
open Indigo.Spec

/-- C15: a byte string is recognised as a method exactly when it is that method's name. -/
theorem C15_method_recognised_iff (s : Bytes) (m : Method) (hm : m ≠ .Unknown) :
    Method.parse s = m ↔ s = methodName m := by
  constructor
  · intro h
    unfold Method.parse at h
    repeat' split at h
    all_goals (subst h; first | assumption | exact absurd rfl hm)
  · rintro rfl
    cases m <;> first | exact absurd rfl hm | decide

/-- C15: every method is printed by its name. -/
theorem C15_method_rendered (m : Method) (hm : m ≠ .Unknown) : m.toBytes = methodName m := by
  cases m <;> first | exact absurd rfl hm | decide

/-- C15: every supported method is in the published list. -/
theorem C15_method_list (m : Method) : m ≠ .Unknown ↔ m ∈ Method.list := by
  cases m <;> simp [Method.list]

example : Method.parse b!"PATCH" = .PATCH ∧ Method.parse b!"patch" = .Unknown ∧
    Method.parse b!"GE" = .Unknown ∧ Method.parse b!"GETT" = .Unknown := by decide

theorem proto_parse_eq (major minor : Byte) :
    (Proto.parse (major - 48) (minor - 48) = Proto.HTTP10 ↔ major = 49 ∧ minor = 48) ∧
    (Proto.parse (major - 48) (minor - 48) = Proto.HTTP11 ↔ major = 49 ∧ minor = 49) ∧
    (Proto.parse (major - 48) (minor - 48) = Proto.HTTP2 ↔ major = 50 ∧ minor = 48) ∧
    (Proto.parse (major - 48) (minor - 48) ∈ [Proto.Unknown, Proto.HTTP10, Proto.HTTP11, Proto.HTTP2]) := by
  have e1 : major - 48 = 1 ↔ major = 49 :=
    byte_forall (P := fun c => c - 48 = 1 ↔ c = 49) (by decide +kernel) major
  have e2 : major - 48 = 2 ↔ major = 50 :=
    byte_forall (P := fun c => c - 48 = 2 ↔ c = 50) (by decide +kernel) major
  have e3 : minor - 48 = 0 ↔ minor = 48 :=
    byte_forall (P := fun c => c - 48 = 0 ↔ c = 48) (by decide +kernel) minor
  have e4 : minor - 48 = 1 ↔ minor = 49 :=
    byte_forall (P := fun c => c - 48 = 1 ↔ c = 49) (by decide +kernel) minor
  simp only [Proto.parse_eq]
  simp only [e1, e2, e3, e4]
  by_cases h1 : major = 49
  · subst h1
    by_cases h2 : minor = 48
    · subst h2; decide
    · by_cases h3 : minor = 49
      · subst h3; decide
      · simp [h2, h3]; decide
  · by_cases h2 : major = 50
    · subst h2
      by_cases h3 : minor = 48
      · subst h3; decide
      · simp [h3]; decide
    · simp [h1, h2]; decide

/-- C16: neither parsing nor printing a version panics, whatever the bytes (the tables are not indexed out of range). -/
theorem C16_no_panic : (∀ major minor, Proto.parse? major minor ≠ none) ∧ (∀ p, Proto.toBytes? p ≠ none) := by
  refine ⟨fun major minor => ?_, fun p => ?_⟩
  · rw [Proto.parse?_eq]; simp
  · rw [Proto.toBytes?_eq]; simp

/-- Such bytes are `HTTP/1.:` (`:` is after `9`), and the value 9 of `Proto` is the first one after the table. -/
example : Proto.parse? 1 10 = some Proto.Unknown ∧ Proto.parse? 9 9 = some Proto.Unknown ∧ Proto.toBytes? 9 = some [] := by decide +kernel

/-- C16 is false of the code: the separator between the version digits is not checked, so other tokens
than the registered ones are accepted as HTTP/1.1. -/
theorem C16_separator_not_checked_violation :
    Proto.fromBytes b!"HTTP/1x1" = Proto.HTTP11 ∧
    b!"HTTP/1x1" ∉ [b!"HTTP/1.0", b!"HTTP/1.1", b!"HTTP/2.0"] := by decide

/-- C16, the part that holds: the registered tokens are recognised, rendered back identically (followed by
one space), and a recognised token differs from a registered one at most in the byte between the version
digits. Missing: that byte. -/
theorem C16_proto_partial :
    (Proto.fromBytes b!"HTTP/1.0" = Proto.HTTP10 ∧ Proto.fromBytes b!"HTTP/1.1" = Proto.HTTP11 ∧
      Proto.fromBytes b!"HTTP/2.0" = Proto.HTTP2) ∧
    (Proto.toBytes Proto.HTTP10 = b!"HTTP/1.0" ++ [32] ∧ Proto.toBytes Proto.HTTP11 = b!"HTTP/1.1" ++ [32]) ∧
    (∀ raw, Proto.fromBytes raw = Proto.HTTP10 ↔ ∃ sep, raw = b!"HTTP/1" ++ [sep] ++ b!"0") ∧
    (∀ raw, Proto.fromBytes raw = Proto.HTTP11 ↔ ∃ sep, raw = b!"HTTP/1" ++ [sep] ++ b!"1") ∧
    (∀ raw, Proto.fromBytes raw = Proto.HTTP2 ↔ ∃ sep, raw = b!"HTTP/2" ++ [sep] ++ b!"0") ∧
    (∀ raw, Proto.fromBytes raw ∈ [Proto.Unknown, Proto.HTTP10, Proto.HTTP11, Proto.HTTP2]) := by
  refine ⟨by decide, by decide, ?_, ?_, ?_, ?_⟩
  all_goals
    intro raw
    unfold Proto.fromBytes
    split
    · rename_i a b c d e major sep minor
      have hp := proto_parse_eq major minor
      by_cases hs : [a, b, c, d, e] = b!"HTTP/"
      · rw [if_pos hs]
        simp at hs
        obtain ⟨rfl, rfl, rfl, rfl, rfl⟩ := hs
        first
          | exact hp.2.2.2
          | (simp only [hp.1]; simp)
          | (simp only [hp.2.1]; simp)
          | (simp only [hp.2.2.1]; simp)
      · rw [if_neg hs]
        first
          | (simp; done)
          | (constructor
             · intro h; exact absurd h (by decide)
             · rintro ⟨x, hx⟩
               simp at hx hs
               exact absurd hx.2.2.2.2.1 (hs hx.1 hx.2.1 hx.2.2.1 hx.2.2.2.1))
    · first
        | (simp; done)
        | (rename_i hne
           constructor
           · intro h; exact absurd h (by decide)
           · rintro ⟨x, rfl⟩
             exact absurd rfl (hne _ _ _ _ _ _ _ _))

/-- The protocols named by upgrade tokens (http/proto/upgrade.go documents `http/1.0`, `http/1.1`, `h2c` in
lower or upper case). -/
def upgradeName (t : Bytes) : Option Proto :=
  if t ∈ [b!"http/1.0", b!"HTTP/1.0"] then some Proto.HTTP10
  else if t ∈ [b!"http/1.1", b!"HTTP/1.1"] then some Proto.HTTP11
  else if t ∈ [b!"h2c", b!"H2C"] then some Proto.HTTP2
  else none

/-- C56: for a comma separated list of tokens with optional white space, the protocol chosen is that of the
first token naming a supported one, and `Unknown` if no token does. -/
theorem C56_first_supported_token {s : Bytes} {ts : List Bytes} (h : ListText s ts)
    (ht : ∀ t ∈ ts, IsToken t) :
    Proto.chooseUpgrade s = (ts.findSome? upgradeName).getD Proto.Unknown := by
  rw [Proto.chooseUpgrade, Proto.chooseUpgradeLoop_spec h ht _ (Nat.le_refl _)]
  clear h ht
  have key : ∀ t, upgradeName t =
      if Proto.parseUpgradeToken t = Proto.Unknown then none else some (Proto.parseUpgradeToken t) := by
    intro t
    unfold upgradeName Proto.parseUpgradeToken
    simp only [List.mem_cons, List.not_mem_nil, or_false]
    repeat' split
    all_goals first | rfl | contradiction | (rename_i h _ ; exact absurd h (by decide)) | (rename_i h; exact absurd h (by decide))
  induction ts with
  | nil => rfl
  | cons t ts ih =>
    simp only [List.map_cons, List.find?_cons, List.findSome?_cons, key t]
    by_cases hu : Proto.parseUpgradeToken t = Proto.Unknown
    · simp [hu]; simpa using ih
    · simp [hu]

example : ListText b!"websocket, h2c ,http/1.1" [b!"websocket", b!"h2c", b!"http/1.1"] :=
  .cons (s := b!"websocket") ⟨[], [], by simp, by simp, rfl⟩ <|
  .cons (s := b!" h2c ") ⟨b!" ", b!" ", by simp [isOWS], by simp [isOWS], rfl⟩ <|
  .one ⟨[], [], by simp, by simp, rfl⟩
example : Proto.chooseUpgrade b!"websocket, h2c ,http/1.1" = Proto.HTTP2 := by decide

end Indigo.Props
