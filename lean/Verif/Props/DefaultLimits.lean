/-
C49: what the default configuration lets through.
-/
import Verif.Props.Config
import Verif.Props.Serve

namespace Indigo.Props
open Spec

/-- C49: nothing is set in the empty configuration, so that filling it gives the default values, but for the number of preallocated cookies. -/
theorem C49_empty_partial (s : Setting) (hs : s ≠ .cookiesPreAllocate) :
    setting {} s = 0 ∧ setting (Config.fill {}) s = setting Config.default s := by
  have h : setting {} s = 0 := by cases s <;> rfl
  exact ⟨h, (C49_fill_partial {} s hs).2 h⟩

/-- The values of the settings the comments of the configuration name. -/
def documented : Setting → Int
  | .urlBufferDefault => 2048
  | .urlBufferMaximal => 65535
  | .queryPreAlloc => 10
  | .headersNumberDefault => 10
  | .headersNumberMaximal => 50
  | .headersMaxKeyLength => 100
  | .headersMaxValueLength => 8192
  | .keySpaceDefault => 1024
  | .keySpaceMaximal => 4096
  | .valueSpaceDefault => 1024
  | .valueSpaceMaximal => 8192
  | .maxEncodingTokens => 15
  | .cookiesPreAllocate => 5
  | .bodyMaxSize => 536870912
  | .bodyMaxChunkSize => 131072
  | .bodyDecodingBufferSize => 8192
  | .responseBuffSize => 1024
  | .fileBuffSize => 65536
  | .readBufferSize => 4096
  | .readTimeout => 90000000000

/-- C49: the settings a server runs with: the one chosen, or the documented one if nothing (zero) is chosen; but for the number of
preallocated cookies. The default configuration has the documented values, all of them. -/
theorem C49_documented_partial (c : Config) (s : Setting) :
    (s ≠ .cookiesPreAllocate → setting c.fill s = if setting c s = 0 then documented s else setting c s) ∧
      setting Config.default s = documented s ∧ setting {} s = 0 := by
  have h : setting Config.default s = documented s := by cases s <;> rfl
  refine ⟨fun hs => ?_, h, by cases s <;> rfl⟩
  split
  · next h0 => rw [(C49_fill_partial c s hs).2 h0, h]
  · next h0 => exact (C49_fill_partial c s hs).1 h0

/-- A configuration with some settings chosen. -/
example : setting (Config.fill { bodyMaxSize := 100, headersNumberMaximal := 7 }) .bodyMaxSize = 100 ∧
    setting (Config.fill { bodyMaxSize := 100, headersNumberMaximal := 7 }) .headersNumberMaximal = 7 ∧
    setting (Config.fill { bodyMaxSize := 100, headersNumberMaximal := 7 }) .bodyMaxChunkSize = 131072 := by decide

/-- C49: the requests a server without a configuration of its own lets through: the request line has no more than 65535 bytes (not counting
the first space and the line feed), the header section no more than 50 lines, 4 kilobytes of names and 8 of values, and the body no more than 512 megabytes;
and up to 15 codings are looked at. Those are also the limits of the default configuration. -/
theorem C49_default_limits (F : Fold) (s : Sending) :
    (SendableWith F (Config.fill {}) s ↔
      (s.head.OK ∧ s.head.CleanNames ∧ s.head.NoBareEmpty ∧ Unescapes s.head.target s.path ∧ Framed F 15 s) ∧
      s.head.lineLength ≤ 65535 ∧ s.head.fields.length ≤ 50 ∧
      (s.head.fields.map (fun f => f.name.length)).sum ≤ 4096 ∧
      ((s.head.fields.filter (fun f => !f.isLength)).map Field.rawLength).sum ≤ 8192 ∧
      s.body.length ≤ 536870912) ∧
    (SendableWith F (Config.fill {}) s ↔ SendableWith F Config.default s) := by
  have sumLe : ∀ (fs : List Field) (f : Field), f ∈ fs → f.isLength = false →
      f.rawLength ≤ ((fs.filter (fun f => !f.isLength)).map Field.rawLength).sum := by
    intro fs f hf hl
    exact le_sum (List.mem_map.2 ⟨f, List.mem_filter.2 ⟨hf, by simp [hl]⟩, rfl⟩)
  refine ⟨⟨fun h => ⟨⟨h.ok, h.clean, h.noBareEmpty, h.path, h.framed⟩, h.fits.line, h.fits.number, h.fits.names, h.fits.values, h.body⟩,
    fun ⟨⟨h1, h2, h3, h4, h5⟩, l1, l2, l3, l4, l5⟩ => ⟨h1, h2, h3, ⟨l1, l3, l4, l2, ?_⟩, h4, h5, l5⟩⟩, Iff.rfl⟩
  intro f hf hl
  exact Nat.le_trans (sumLe _ f hf hl) l4

/-- C49: how long a server without a configuration of its own waits for a client, and how much it reads at once. -/
theorem C49_default_timeout :
    setting (Config.fill {}) .readTimeout = 90 * 1000000000 ∧ setting (Config.fill {}) .readBufferSize = 4096 := by decide

end Indigo.Props
