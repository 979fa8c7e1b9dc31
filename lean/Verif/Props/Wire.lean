/-
C90 The server and a strict reader agree about where requests end.
-/
import Verif.Proofs.Wire
import Verif.Props.Serve
import Verif.Props.ServeWitness

namespace Indigo.Props
open Indigo.Serve Indigo.Spec
variable {σ ρ : Type}

/-- The stream the strict reader splits is a sequence of well-formed requests. -/
private theorem wires_sendings {F : Fold} {L : Limits} {maxTokens maxBody : Nat} (n : Nat) : ∀ {s : Bytes} {ws : List WireRequest}, readWires n s = some ws →
    (∀ w ∈ ws, ∃ m path, w.Fits L maxTokens maxBody m path) →
    ∃ ts : List Sending, s = ts.flatMap Sending.bytes ∧ ts.length = ws.length ∧ (∀ t ∈ ts, Sendable F L maxTokens maxBody t) ∧
      ∀ (i : Nat) (t : Sending) (w : WireRequest), ts[i]? = some t → ws[i]? = some w → ∃ m, t.head = w.head m ∧ w.Fits L maxTokens maxBody m t.path ∧ t.body = w.body := by
  induction n with
  | zero =>
    intro s ws h _
    cases s with
    | nil => cases h; exact ⟨[], rfl, rfl, by simp, by simp⟩
    | cons => cases h
  | succ n ih =>
    intro s ws h fits
    cases s with
    | nil => cases h; exact ⟨[], rfl, rfl, by simp, by simp⟩
    | cons c cs =>
      rw [readWires] at h
      generalize c :: cs = s at h
      cases hw : readWire s with
      | none => rw [hw] at h; cases h
      | some r =>
        obtain ⟨w, rest⟩ := r
        rw [hw] at h
        simp only at h
        cases hr : readWires n rest with
        | none => rw [hr] at h; cases h
        | some ws' =>
          rw [hr] at h
          cases h
          obtain ⟨m, path, hf⟩ := fits w (by simp)
          obtain ⟨t, h1, h2, h3, h4, h5⟩ := wire_sending (F := F) hw hf
          obtain ⟨ts, k1, k2, k3, k4⟩ := ih hr (fun w hw => fits w (by simp [hw]))
          refine ⟨t :: ts, by rw [h5, k1]; rfl, by simp [k2], ?_, ?_⟩
          · intro t' ht
            rcases List.mem_cons.1 ht with rfl | ht
            · exact h4
            · exact k3 t' ht
          · intro i t' w' ht hw'
            cases i with
            | zero =>
              cases ht
              cases hw'
              exact ⟨m, h1, by rw [h2]; exact hf, h3⟩
            | succ i => exact k4 i t' w' (by simpa using ht) (by simpa using hw')

/-- **C90 (part).** A stream of bytes which a strict reader of HTTP/1.x splits into the requests `ws`, with nothing left over, reaches the server in any segmentation. They are requests it can take (`Fits`). Then
the server splits the stream in the same way: the i-th call of the router with a request is with the i-th request the reader has found, with its method, path, query, fields and body; there are no further calls with requests, and
none is missing if serving ends because the client sends nothing more. Missing: streams which the reader refuses (see the violations below). -/
theorem C90_agrees_partial (E : Setup σ ρ) (dec : DecodesChunked E.P) (cfg : Config) (size : cfg.bodyMaxSize < 2 ^ 64) (enc : EncToken) (remote : Bytes)
    (st : ρ) (tame : Tame E st) (cl : Client) (quiet : Quiet cl) (post : List (Bytes × Option GoErr)) (silent : Silent post)
    (ws : List WireRequest) (read : readWires cl.stream.length cl.stream = some ws)
    (fits : ∀ w ∈ ws, ∃ m path, w.Fits (headLimits cfg) cfg.maxEncodingTokens.toNat cfg.bodyMaxSize.toNat m path) :
    let run := serve E (newConn E.P cfg enc remote st (followedBy cl post))
    (∀ (i : Nat) seen world a left, run.1.visits[i]? = some (.request seen world a left) →
      ∃ w m path, ws[i]? = some w ∧ w.Fits (headLimits cfg) cfg.maxEncodingTokens.toNat cfg.bodyMaxSize.toNat m path ∧ Heard E w m path seen world) ∧
    (run.2 = some .readFailed → ∀ i, i < ws.length → ∃ seen world f left, run.1.visits[i]? = some (.request seen world (some f) left)) := by
  intro run
  obtain ⟨ts, h1, h2, h3, h4⟩ := wires_sendings (F := E.F) _ read fits
  refine ⟨?_, ?_⟩
  · intro i seen world a left hv
    obtain ⟨t, ht, hd⟩ := C22_each_its_own E dec cfg size enc remote st tame cl quiet post silent ts h3 h1 i seen world a left hv
    have hi : i < ws.length := by
      rw [← h2]
      exact (List.getElem?_eq_some_iff.1 ht).1
    obtain ⟨m, k1, k2, k3⟩ := h4 i t ws[i] ht (List.getElem?_eq_getElem hi)
    refine ⟨ws[i], m, t.path, List.getElem?_eq_getElem hi, k2, ?_⟩
    have hc := hd.carries
    rw [k1] at hc
    obtain ⟨ds, b', c', p1, p2, -⟩ := hd.body
    refine ⟨hc.method, hd.path, hc.query.1, hc.proto, ?_, ds, _, p1, by rw [p2, k3]⟩
    rw [hc.headers]
    show ((ws[i].fields.map toField).filter (fun f => !f.isLength)).map (fun f => (⟨f.name, f.value⟩ : Pair)) = _
    rw [List.filter_map, List.map_map]
    rfl
  · intro hend i hi
    exact (C22_all_served E dec cfg size enc remote st tame cl quiet post silent ts h3 h1 hend).2 i (by rw [h2]; exact hi)

/-! ### The hypotheses are met -/

private def threeRequests : Bytes :=
  b!"POST /a HTTP/1.1\r\nContent-Length: 5\r\nHost:x \r\n\r\nhelloPUT /b?q HTTP/1.1\r\ntransfer-encoding:  Chunked\t\r\n\r\n3\r\nabc\r\n00\r\n\r\nGET /c HTTP/1.1\r\n\r\n"

/-- C90: the strict reader finds three requests in this stream; the server is able to take them, and (the stream coming in two segments) answers each of them. -/
example : ∃ a b c : WireRequest, readWires threeRequests.length threeRequests = some [a, b, c] ∧ [a.body, b.body, c.body] = [b!"hello", b!"abc", []] ∧
    [a.fields, b.fields, c.fields] = [[(b!"Content-Length", b!" 5"), (b!"Host", b!"x ")], [(b!"transfer-encoding", b!"  Chunked\t")], []] ∧
    a.Fits (headLimits Config.default) Config.default.maxEncodingTokens.toNat Config.default.bodyMaxSize.toNat .POST b!"/a" ∧
    b.Fits (headLimits Config.default) Config.default.maxEncodingTokens.toNat Config.default.bodyMaxSize.toNat .PUT b!"/b" ∧
    c.Fits (headLimits Config.default) Config.default.maxEncodingTokens.toNat Config.default.bodyMaxSize.toNat .GET b!"/c" ∧
    (exchange report 0 [threeRequests.take 70, threeRequests.drop 70]).1.map (fun m => (readMsg m).map Msg.rest) = [some b!"/a hello", some b!"/b abc", some b!"/c "] := by
  refine ⟨⟨b!"POST", b!"/a", b!"HTTP/1.1", [(b!"Content-Length", b!" 5"), (b!"Host", b!"x ")], b!"hello"⟩,
    ⟨b!"PUT", b!"/b?q", b!"HTTP/1.1", [(b!"transfer-encoding", b!"  Chunked\t")], b!"abc"⟩, ⟨b!"GET", b!"/c", b!"HTTP/1.1", [], []⟩,
    by decide +kernel, by decide +kernel, by decide +kernel, ?_, ?_, ?_, by decide +kernel⟩
  all_goals exact ⟨by decide +kernel, ⟨by decide +kernel, .lit (by decide) (.lit (by decide) .nil)⟩, by decide +kernel, by decide +kernel, by decide +kernel, by decide +kernel,
    by decide +kernel, by decide +kernel, by decide +kernel, by decide +kernel⟩

/-! ### Streams which the strict reader refuses -/

/-- The paths of the requests handlers are called with. -/
private def handled (s : Bytes) : List Bytes :=
  (serve simple (newConn simple.P Config.default 0 b!"1.2.3.4" ⟨report, reportError⟩ (arrive [s]))).1.visits.filterMap (fun
    | .request seen _ _ _ => some seen.Path
    | .error _ _ _ _ => none)

/-- **C90** is false: a blank in front of the colon, or in front of the name (a folded line); a length of 2^64; two transfer codings, of which the last one counts; codings after `chunked`, or a Content-Length next to it; a no-break space behind `chunked`. A strict
reader refuses each of these requests (RFC 9112, 5.1, 5.2, 6.1, 6.3), because it is not clear where it ends. The server takes the bytes behind its head, or behind the chunks, for a request. -/
theorem C90_smuggled_violation :
    ∀ x ∈ [b!"POST /a HTTP/1.1\r\nContent-Length : 24\r\n\r\n", b!"POST /a HTTP/1.1\r\nX: a\r\n Content-Length: 24\r\n\r\n",
        b!"POST /a HTTP/1.1\r\nContent-Length: 18446744073709551616\r\n\r\n",
        b!"POST /a HTTP/1.1\r\nTransfer-Encoding: chunked\r\nTransfer-Encoding: identity\r\n\r\n",
        b!"POST /a HTTP/1.1\r\nTransfer-Encoding: chunked, identity\r\n\r\n0\r\n\r\n",
        b!"POST /a HTTP/1.1\r\nContent-Length: 29\r\nTransfer-Encoding: chunked\r\n\r\n0\r\n\r\n",
        b!"POST /a HTTP/1.1\r\nTransfer-Encoding: chunked" ++ [0xC2, 0xA0] ++ b!"\r\n\r\n0\r\n\r\n"],
      readWire (x ++ b!"GET /hidden HTTP/1.1\r\n\r\n") = none ∧ handled (x ++ b!"GET /hidden HTTP/1.1\r\n\r\n") = [b!"/a", b!"/hidden"] := by
  decide +kernel

/-- **C90** is false: two fields Content-Length, which a strict reader refuses (or, if they agree, takes for one), are taken for one number with the digits of both, so that the next request is taken for a part of the body. -/
theorem C90_swallowed_violation :
    let s := b!"POST /a HTTP/1.1\r\nContent-Length: 2\r\nContent-Length: 2\r\n\r\nhiGET /bc HTTP/1.1\r\n\r\n"
    readWire s = none ∧ handled s = [b!"/a"] ∧ (exchange report 0 [s]).1.map (fun m => (readMsg m).map Msg.rest) = [some b!"/a hiGET /bc HTTP/1.1\r\n\r\n"] := by
  decide +kernel

end Indigo.Props
