/-
C49: configuration defaults; C66: a body limit of zero.
-/
import Verif.Model.Config

namespace Indigo.Props

/-- The numeric settings of a configuration. -/
inductive Setting
  | urlBufferDefault | urlBufferMaximal | queryPreAlloc | headersNumberDefault | headersNumberMaximal
  | headersMaxKeyLength | headersMaxValueLength | keySpaceDefault | keySpaceMaximal | valueSpaceDefault
  | valueSpaceMaximal | maxEncodingTokens | cookiesPreAllocate | bodyMaxSize | bodyMaxChunkSize
  | bodyDecodingBufferSize | responseBuffSize | fileBuffSize | readBufferSize | readTimeout
  deriving DecidableEq

/-- The value of a setting. -/
def setting (c : Config) : Setting → Int
  | .urlBufferDefault => c.urlBufferDefault
  | .urlBufferMaximal => c.urlBufferMaximal
  | .queryPreAlloc => c.queryPreAlloc
  | .headersNumberDefault => c.headersNumberDefault
  | .headersNumberMaximal => c.headersNumberMaximal
  | .headersMaxKeyLength => c.headersMaxKeyLength
  | .headersMaxValueLength => c.headersMaxValueLength
  | .keySpaceDefault => c.keySpaceDefault
  | .keySpaceMaximal => c.keySpaceMaximal
  | .valueSpaceDefault => c.valueSpaceDefault
  | .valueSpaceMaximal => c.valueSpaceMaximal
  | .maxEncodingTokens => c.maxEncodingTokens
  | .cookiesPreAllocate => c.cookiesPreAllocate
  | .bodyMaxSize => c.bodyMaxSize
  | .bodyMaxChunkSize => c.bodyMaxChunkSize
  | .bodyDecodingBufferSize => c.bodyDecodingBufferSize
  | .responseBuffSize => c.responseBuffSize
  | .fileBuffSize => c.fileBuffSize
  | .readBufferSize => c.readBufferSize
  | .readTimeout => c.readTimeout

/-- C49, the part that holds: every setting but one keeps the value the user has chosen, and is the default one
if the user has not set it (zero); and likewise the default headers. -/
theorem C49_fill_partial (c : Config) (s : Setting) (hs : s ≠ .cookiesPreAllocate) :
    (setting c s ≠ 0 → setting c.fill s = setting c s) ∧
      (setting c s = 0 → setting c.fill s = setting Config.default s) := by
  cases s <;> first | contradiction | (simp only [setting, Config.fill, Config.numOr]; constructor <;> intro h <;> simp [h])

/-- C49: the default headers. -/
theorem C49_fill_headers (c : Config) :
    (∀ m, c.defaultHeaders = some m → c.fill.defaultHeaders = some m) ∧
      (c.defaultHeaders = none → c.fill.defaultHeaders = some [(b!"Accept-Encodings", b!"identity")]) := by
  constructor
  · intro m h; simp [Config.fill, Config.mapOr, h]
  · intro h; simp [Config.fill, Config.mapOr, h, Config.default, Config.DefaultHeaders]

/-- C49 is false: the number of preallocated cookies is lost, whether the user has set it or not. -/
theorem C49_cookies_violation :
    (∃ c : Config, setting c .cookiesPreAllocate ≠ 0 ∧
      setting c.fill .cookiesPreAllocate ≠ setting c .cookiesPreAllocate) ∧
    (∃ c : Config, setting c .cookiesPreAllocate = 0 ∧
      setting c.fill .cookiesPreAllocate ≠ setting Config.default .cookiesPreAllocate) :=
  ⟨⟨{ cookiesPreAllocate := 7 }, by decide, by decide⟩, ⟨{}, by decide, by decide⟩⟩

/-- C49: filling twice equals filling once. -/
theorem C49_fill_idempotent (c : Config) : c.fill.fill = c.fill := by
  have h : ∀ a b : Int, b ≠ 0 → Config.numOr (Config.numOr a b) b = Config.numOr a b := by
    intro a b hb
    unfold Config.numOr
    by_cases ha : a = 0 <;> simp [ha]
  have hm : ∀ (a : Option (List (Bytes × Bytes))) b, Config.mapOr (Config.mapOr a b) b = Config.mapOr a b := by
    intro a b; cases a <;> cases b <;> rfl
  simp only [Config.fill, hm]
  rw [h _ _ (by decide), h _ _ (by decide), h _ _ (by decide), h _ _ (by decide), h _ _ (by decide),
    h _ _ (by decide), h _ _ (by decide), h _ _ (by decide), h _ _ (by decide), h _ _ (by decide),
    h _ _ (by decide), h _ _ (by decide), h _ _ (by decide), h _ _ (by decide), h _ _ (by decide),
    h _ _ (by decide), h _ _ (by decide), h _ _ (by decide), h _ _ (by decide)]

/-- C49: after filling no setting is zero, except for the number of preallocated cookies. -/
theorem C49_fill_nonzero_partial (c : Config) (s : Setting) (hs : s ≠ .cookiesPreAllocate) : setting c.fill s ≠ 0 := by
  by_cases h : setting c s = 0
  · rw [(C49_fill_partial c s hs).2 h]
    cases s <;> first | contradiction | decide
  · rw [(C49_fill_partial c s hs).1 h]; exact h

/-- C49: the default configuration is consistent: initial sizes do not exceed the maximal ones, one key or value
of maximal length fits into the space for keys or values, and no size is zero. -/
theorem C49_default_consistent :
    Config.default.urlBufferDefault ≤ Config.default.urlBufferMaximal ∧
    Config.default.headersNumberDefault ≤ Config.default.headersNumberMaximal ∧
    Config.default.keySpaceDefault ≤ Config.default.keySpaceMaximal ∧
    Config.default.valueSpaceDefault ≤ Config.default.valueSpaceMaximal ∧
    Config.default.headersMaxKeyLength ≤ Config.default.keySpaceMaximal ∧
    Config.default.headersMaxValueLength ≤ Config.default.valueSpaceMaximal ∧
    ∀ s, 0 < setting Config.default s := by
  refine ⟨by decide, by decide, by decide, by decide, by decide, by decide, ?_⟩
  intro s
  cases s <;> decide

/-- C66 is false: the documented way of refusing bodies, a maximal size of zero, results in the default limit of
512 megabytes. -/
theorem C66_zero_body_limit_violation :
    ∀ c : Config, setting c .bodyMaxSize = 0 → setting c.fill .bodyMaxSize = 512 * 1024 * 1024 := by
  intro c h
  have := (C49_fill_partial c .bodyMaxSize (by decide)).2 h
  rw [this]; decide

/-- C66, the part that holds: every limit but zero is the limit in force. -/
theorem C66_body_limit_partial (c : Config) (n : Nat) (h : setting c .bodyMaxSize = (n + 1 : Nat)) :
    setting c.fill .bodyMaxSize = (n + 1 : Nat) := by
  rw [← h]
  exact (C49_fill_partial c .bodyMaxSize (by decide)).1 (by rw [h]; omega)

example : setting ({ bodyMaxSize := 100 } : Config) .bodyMaxSize = (99 + 1 : Nat) := by decide

end Indigo.Props
