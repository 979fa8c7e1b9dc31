/-
C01-C08, C17: request heads.
-/
import Verif.Proofs.ParserHead4
import Verif.Proofs.ParserInv
import Verif.Proofs.ParserSum
import Verif.Proofs.Tokens

namespace Indigo.Props
open Indigo.Spec Indigo.Parser

/-- C01: every well-formed head within the limits is accepted however the stream is cut into segments, the
request carries exactly what the head says, the bytes after the head are handed on untouched, and the
parser is ready for the next head. -/
theorem C01_head_any_segmentation (F : Fold) (p : PState) (hp : Ready p) (hr : Cleared p.req) (h : Head)
    (ok : h.OK) (clean : h.CleanNames) (nb : h.NoBareEmpty) (fits : h.Fits (limits p)) (path : Bytes)
    (enc : Unescapes h.target path) (after : Bytes) (segs : List Bytes)
    (stream : segs.flatten = h.render ++ after) :
    ∃ p' extra rest, feed F p segs = (p', .completed extra, rest) ∧ extra ++ rest.flatten = after ∧
      p'.req.Path = path ∧ Carries F p.cfg.maxEncodingTokens h p'.req ∧ Ready p' := by
  have hd : UriDecode.Decode h.target = some path := by
    rw [UriDecode.Decode_eq]; exact UriDecode.pct_of_unescapes enc
  have hcr : ∀ f ∈ h.fields, 13 ∉ f.name := fun f hf => (clean f hf).1
  have hex := exec_head F hp ok hd (fun f hf => (fieldOK_iff (hcr f hf)).2 (ok.fields f hf))
    (by have := fits.line; rw [← fullLine_length] at this; simp [limits] at this; omega)
    ((fits_iff F hp clean path).2 ⟨fits.names, fits.values, fits.number, fits.value, nb⟩) after
  have hfeed := feed_eq F segs p (by
    rw [stream]
    exact hp.cond (requestLineFits_render ok after fits.line) (cleanStream_render ok clean after))
  rw [hp.state, stream, hex] at hfeed
  have hcar := carries_head F hp hr clean hd ok.version.1
  have hready := ready_cleanup (h.fields.foldl (afterField F) (afterRequestLine p h path))
  revert hfeed hcar hready
  generalize cleanup (h.fields.foldl (afterField F) (afterRequestLine p h path)) = q
  intro hfeed hcar hready
  match hfd : feed F p segs with
  | (p', .completed ex, rest) =>
    rw [hfd] at hfeed
    simp [FeedRel] at hfeed
    obtain ⟨rfl, rfl⟩ := hfeed
    exact ⟨_, ex, rest, rfl, rfl, hcar.path path enc, hcar, hready⟩
  | (p', .pending, rest) => rw [hfd] at hfeed; simp [FeedRel] at hfeed
  | (p', .error e, rest) => rw [hfd] at hfeed; simp [FeedRel] at hfeed
  | (p', .panic, rest) => rw [hfd] at hfeed; simp [FeedRel] at hfeed

/-- C02, the part that holds: when the field names are free of CR and LF, whatever is accepted is a request
line followed by header lines and an empty line, all within the limits, and the request carries exactly the
values of these lines. Missing: header names containing CR or LF (`C02_names_violation`). -/
theorem C02_accepted_is_head_partial (F : Fold) (p : PState) (hp : Ready p) (hr : Cleared p.req) (s : Bytes)
    (clean : CleanStream s) (p' : PState) (extra : Bytes) (acc : parse F p s = (p', .completed extra)) :
    ∃ h : Head, s = h.render ++ extra ∧ h.OK ∧ h.CleanNames ∧
      Carries F p.cfg.maxEncodingTokens h p'.req ∧
      Unescapes h.target p'.req.Path ∧
      h.fields.length ≤ p.cfg.maxNumber ∧
      (∀ f ∈ h.fields, f.isLength = false → f.rawLength ≤ p.cfg.maxValueLength) ∧ Ready p' := by
  rw [parse_eq_exec, hp.state] at acc
  obtain ⟨h, path, e1, ⟨hm, hok⟩, hf, hd, hl, hfit, e2⟩ := exec_head_inv F hp acc
  have hclean : h.CleanNames := by
    have hc := clean (methodName h.method) (fullLine h)
      (h.fields.flatMap Field.render ++ (eol h.lastCrlf ++ extra)) (by rw [e1, render_eq])
      (methodName_facts _ hm).1 (by
        have := fullLine_lf hok
        simpa [fullLine, Head.line] using this)
    exact cleanNames_of_clean hf _ _ hc
  have hcr : ∀ f ∈ h.fields, 13 ∉ f.name := fun f hf => (hclean f hf).1
  have hokh : h.OK := ⟨hm, hok.target, hok.query, hok.version, fun f hfm => (fieldOK_iff (hcr f hfm)).1 (hf f hfm)⟩
  have hfit' := (fits_iff F hp hclean path).1 hfit
  refine ⟨h, e1, hokh, hclean, ?_, ?_, hfit'.2.2.1, hfit'.2.2.2.1, ?_⟩
  · rw [e2]; exact carries_head F hp hr hclean hd hok.version.1
  · refine UriDecode.unescapes_of_pct ?_
    rw [← UriDecode.Decode_eq, hd, e2]
    have := (carries_fields F h.fields (afterRequestLine p h path)).path
    simp only [cleanup]
    rw [this]; rfl
  · rw [e2]; exact ready_cleanup _

/-- A head used in the examples:
`GET /a%20b?x=1 HTTP/1.1`, `Host: h`, `Content-Length: 5`, `X:`. -/
def exHead : Head :=
  { method := .GET, target := b!"/a%20b", query := some b!"x=1", version := b!"HTTP/1.1", crlf := true
    fields := [⟨b!"Host", 1, b!"h", true⟩, ⟨b!"CONTENT-length", 2, b!"5", false⟩, ⟨b!"X", 0, [], true⟩]
    lastCrlf := true }

def exParser : PState := new { maxNumber := 3, maxValueLength := 10, maxEncodingTokens := 2 } 64 64 64

theorem exHead_ok : exHead.OK ∧ exHead.CleanNames ∧ exHead.NoBareEmpty ∧ exHead.Fits (limits exParser) := by
  have hf : ∀ f ∈ exHead.fields, f.OK := by
    intro f hf
    simp [exHead] at hf
    rcases hf with rfl | rfl | rfl <;> constructor <;> decide
  exact ⟨⟨by decide, by decide, by decide, ⟨⟨Proto.HTTP11, 46, by decide⟩, by decide, by decide⟩, hf⟩,
    by unfold Head.CleanNames; decide, by unfold Head.NoBareEmpty; decide, by constructor <;> decide⟩

example : Ready exParser ∧ Cleared exParser.req ∧ exHead.OK ∧ exHead.CleanNames ∧ exHead.NoBareEmpty ∧
    exHead.Fits (limits exParser) ∧ Unescapes exHead.target b!"/a b" :=
  ⟨ready_new _ _ _ _, by constructor <;> decide, exHead_ok.1, exHead_ok.2.1, exHead_ok.2.2.1, exHead_ok.2.2.2,
    .lit (by decide) (.lit (by decide) (.esc (.lit (by decide) .nil)))⟩

example : (feed Fold.ascii exParser [b!"GE", b!"T /a%2", b!"0b?x=1 HTTP/1.1", [13, 10, 72], b!"ost: h", [13], [10] ++ b!"CONTENT-length:  5" ++ [10],
      b!"X:" ++ [13, 10, 13, 10] ++ b!"he", b!"llo"]).2 = (.completed b!"he", [b!"llo"]) := by decide +kernel

/-- C01: for streams with clean header names the outcome depends on the bytes only, not on the way they are
cut: same verdict and same request for any two segmentations, and if the head is complete the same remaining
bytes. This covers errors and incomplete heads too. -/
theorem C01_outcome_independent_of_segmentation (F : Fold) (p : PState) (hp : Ready p) (segs segs' : List Bytes)
    (same : segs.flatten = segs'.flatten) (clean : CleanStream segs.flatten)
    (line : RequestLineFits p.startLine.max segs.flatten) :
    (feed F p segs).1.req = (feed F p segs').1.req ∧
    match (feed F p segs).2, (feed F p segs').2 with
    | (.completed ex, rest), (.completed ex', rest') => ex ++ rest.flatten = ex' ++ rest'.flatten
    | (r, _), (r', _) => r = r' := by
  have h1 := feed_eq F segs p (hp.cond line clean)
  have h2 := feed_eq F segs' p (by rw [← same]; exact hp.cond line clean)
  rw [same] at h1
  revert h1 h2
  generalize exec F p.state p segs'.flatten = w
  obtain ⟨wp, wr⟩ := w
  rcases feed F p segs with ⟨p1, r1, rest1⟩
  rcases feed F p segs' with ⟨p2, r2, rest2⟩
  intro h1 h2
  cases r1 <;> cases r2 <;> simp only [FeedRel] at h1 h2 <;> simp_all

/-- For names with CR the segmentation does matter (the name `a` CR `b` is accepted in one piece and
rejected when cut before CR), so the hypothesis on names is needed. -/
example : (feed Fold.ascii exParser [b!"GET / HTTP/1.1" ++ [10] ++ b!"a" ++ [13] ++ b!"b:c" ++ [10, 10]]).2.1 = .completed [] ∧
    (feed Fold.ascii exParser [b!"GET / HTTP/1.1" ++ [10] ++ b!"a", [13] ++ b!"b:c" ++ [10, 10]]).2.1 =
      .error Status.ErrBadRequest := by decide +kernel

/-- C02 for arbitrary segmentations. -/
theorem C02_accepted_is_head_segmented_partial (F : Fold) (p : PState) (hp : Ready p) (hr : Cleared p.req)
    (segs : List Bytes) (clean : CleanStream segs.flatten) (line : RequestLineFits p.startLine.max segs.flatten)
    (p' : PState) (extra : Bytes) (rest : List Bytes) (acc : feed F p segs = (p', .completed extra, rest)) :
    ∃ h : Head, segs.flatten = h.render ++ (extra ++ rest.flatten) ∧ h.OK ∧ h.CleanNames ∧
      Carries F p.cfg.maxEncodingTokens h p'.req ∧ Unescapes h.target p'.req.Path ∧ Ready p' := by
  have h1 := feed_eq F segs p (hp.cond line clean)
  rw [acc] at h1
  simp only [FeedRel] at h1
  obtain ⟨h, a, b, c, d, e, _, _, f⟩ := C02_accepted_is_head_partial F p hp hr segs.flatten clean p' _ h1
  exact ⟨h, a, b, c, d, e, f⟩

example : CleanStream (exHead.render ++ b!"hello") ∧
    (parse Fold.ascii exParser (exHead.render ++ b!"hello")).2 = .completed b!"hello" :=
  ⟨cleanStream_render exHead_ok.1 exHead_ok.2.1 _, by decide +kernel⟩

/-- C02 is false in general: a line without colon is swallowed into the name of the next header. -/
theorem C02_names_violation :
    ∃ s : Bytes, s = b!"GET / HTTP/1.1" ++ [13, 10] ++ b!"no colon here" ++ [13, 10] ++ b!"Host: x" ++ [13, 10, 13, 10] ∧
      (parse Fold.ascii exParser s).2 = .completed [] ∧
      (parse Fold.ascii exParser s).1.req.Headers.pairs =
        [⟨b!"no colon here" ++ [13, 10] ++ b!"Host", b!"x"⟩] := by
  exact ⟨_, rfl, by decide +kernel, by decide +kernel⟩

/-! ### C03 -/

/-- C03 is false: `GET / ` LF, or an empty header value in front of a bare LF, crashes the parser. -/
theorem C03_no_panic_violation :
    (parse Fold.ascii exParser (b!"GET / " ++ [10])).2 = .panic ∧
    (parse Fold.ascii exParser (b!"GET / HTTP/1.1" ++ [10] ++ b!"K:" ++ [10])).2 = .panic := by
  decide +kernel

/-- C03, the part that holds: if every LF sent is preceded by something else than a blank or a colon (for
example by CR), the parser does not panic, whatever the bytes and their segmentation. Missing: the streams of
`C03_no_panic_violation`. -/
theorem C03_no_panic_partial (F : Fold) (p : PState) (hp : Ready p) (segs : List Bytes)
    (guarded : LFGuarded segs.flatten) : (feed F p segs).2.1 ≠ .panic :=
  feed_np F p hp segs guarded

/-- In particular clients ending every line by CR LF never crash the parser. -/
theorem C03_no_panic_crlf_partial (F : Fold) (p : PState) (hp : Ready p) (segs : List Bytes)
    (crlf : ∀ a b : Bytes, segs.flatten = a ++ 10 :: b → a.getLast? = some 13) :
    (feed F p segs).2.1 ≠ .panic :=
  feed_np F p hp segs (fun a b e => ⟨13, crlf a b e, by decide, by decide⟩)

/-! ### C04, C05 -/

/-- C04: whatever is sent and however it is cut, at most `Headers.Number.Maximal` headers are stored. -/
theorem C04_header_count (F : Fold) (p : PState) (hp : Ready p) (hh : p.req.Headers.pairs = [])
    (segs : List Bytes) : (feed F p segs).1.req.Headers.pairs.length ≤ p.cfg.maxNumber :=
  (feed_lim F p hp hh segs).2.2.2.1

/-- C05: whatever is sent and however it is cut, the three buffers stay within their maxima and no stored
value is longer than `MaxValueLength`. -/
theorem C05_memory_limits (F : Fold) (p : PState) (hp : Ready p) (hh : p.req.Headers.pairs = [])
    (segs : List Bytes) :
    (feed F p segs).1.startLine.mem.length ≤ p.startLine.max ∧
    (feed F p segs).1.keyBuf.mem.length ≤ p.keyBuf.max ∧
    (feed F p segs).1.valBuf.mem.length ≤ p.valBuf.max ∧
    ∀ x ∈ (feed F p segs).1.req.Headers.pairs, x.Value.length ≤ p.cfg.maxValueLength :=
  have h := feed_lim F p hp hh segs
  ⟨h.1, h.2.1, h.2.2.1, h.2.2.2.2⟩

example : Ready exParser ∧ exParser.req.Headers.pairs = [] ∧
    (feed Fold.ascii exParser [b!"GET / HTTP/1.1" ++ [10] ++ b!"a:b" ++ [10] ++ b!"a:b" ++ [10], b!"a:b" ++ [10]]).1.req.Headers.pairs.length = 3 :=
  ⟨ready_new _ _ _ _, rfl, by decide +kernel⟩

/-- C05, what reaches a handler: whatever is sent and however it is cut, the names of all stored headers take together
no more than the space for names, their values no more than the space for values, and neither the path nor the query is
longer than the request line may be; an accepted path and query fit in it together. -/
theorem C05_stored_within_limits (F : Fold) (p : PState) (hp : Ready p) (hh : p.req.Headers.pairs = [])
    (hpath : p.req.Path.length ≤ p.startLine.max) (hq : p.req.Query.raw = []) (segs : List Bytes) :
    ((feed F p segs).1.req.Headers.pairs.map fun x => x.Key.length).sum ≤ p.keyBuf.max ∧
    ((feed F p segs).1.req.Headers.pairs.map fun x => x.Value.length).sum ≤ p.valBuf.max ∧
    (feed F p segs).1.req.Path.length ≤ p.startLine.max ∧ (feed F p segs).1.req.Query.raw.length ≤ p.startLine.max ∧
    ∀ x, (feed F p segs).2.1 = .completed x →
      (feed F p segs).1.req.Path.length + (feed F p segs).1.req.Query.raw.length < p.startLine.max :=
  have h := feed_sum F p hp hh hpath hq segs
  ⟨h.1.1, h.1.2.1, h.1.2.2.1, h.1.2.2.2, fun x hx => h.2 x hx⟩

example : Ready exParser ∧ exParser.req.Headers.pairs = [] ∧ exParser.req.Path.length ≤ exParser.startLine.max ∧
    exParser.req.Query.raw = [] ∧
    let r := (feed Fold.ascii exParser [b!"GET /%61b?c=", b!"d HTTP/1.1" ++ [10] ++ b!"aa:bcd" ++ [10] ++ b!"e:f" ++ [10, 10]])
    r.2.1 = .completed [] ∧ (r.1.req.Headers.pairs.map fun x => x.Key.length).sum = 3 ∧
    (r.1.req.Headers.pairs.map fun x => x.Value.length).sum = 4 ∧
    r.1.req.Path.length = 3 ∧ r.1.req.Query.raw.length = 3 :=
  ⟨ready_new _ _ _ _, rfl, by decide, rfl, by decide +kernel⟩

/-- C04, second half: a well-formed head with more than `Headers.Number.Maximal` header lines (within the
other limits) is refused with `ErrTooManyHeaders`, status 431, however it is cut. -/
theorem C04_too_many_headers (F : Fold) (p : PState) (hp : Ready p) (h : Head) (ok : h.OK) (clean : h.CleanNames)
    (nb : h.NoBareEmpty) (fits : h.Fits { limits p with number := h.fields.length })
    (many : p.cfg.maxNumber < h.fields.length) (path : Bytes) (enc : Unescapes h.target path) (after : Bytes)
    (segs : List Bytes) (stream : segs.flatten = h.render ++ after) :
    (feed F p segs).2.1 = .error Status.ErrTooManyHeaders ∧ Status.ErrTooManyHeaders.Code = 431 := by
  have hd : UriDecode.Decode h.target = some path := by
    rw [UriDecode.Decode_eq]; exact UriDecode.pct_of_unescapes enc
  refine ⟨?_, rfl⟩
  have hex := exec_too_many F hp ok clean nb fits many hd after
  have hfeed := feed_eq F segs p (by
    rw [stream]
    exact hp.cond (requestLineFits_render ok after fits.line) (cleanStream_render ok clean after))
  rw [hp.state, stream] at hfeed
  revert hfeed
  generalize exec F .method p (h.render ++ after) = w at hex
  obtain ⟨wp, wr⟩ := w
  simp at hex; subst hex
  rcases feed F p segs with ⟨p1, r1, rest1⟩
  cases r1 <;> simp [FeedRel] <;> intro h <;> simp [h]

example : Ready { exParser with cfg := { exParser.cfg with maxNumber := 2 } } ∧
    exHead.Fits { limits { exParser with cfg := { exParser.cfg with maxNumber := 2 } } with number := exHead.fields.length } ∧
    2 < exHead.fields.length :=
  ⟨⟨rfl, ⟨rfl, rfl⟩, ⟨rfl, rfl⟩, ⟨rfl, rfl⟩, rfl, rfl⟩, by constructor <;> decide, by decide⟩

/-! ### C06 -/

/-- A head with one header whose name has `n` letters. -/
def longKeyHead (n : Nat) : Head :=
  { method := .GET, target := b!"/", query := none, version := b!"HTTP/1.1", crlf := true
    fields := [⟨List.replicate n 97, 1, b!"v", true⟩], lastCrlf := true }

/-- C06 is false for every value of `MaxKeyLength`: a name longer than it is accepted and stored, as long as
the key buffer is large enough. -/
theorem C06_key_length_violation (F : Fold) (cfg : HeadersCfg) (line names values : Nat) (hline : 16 ≤ line)
    (hnames : cfg.maxKeyLength + 15 ≤ names) (hvalues : 3 ≤ values) (hnumber : 1 ≤ cfg.maxNumber)
    (hvalue : 3 ≤ cfg.maxValueLength) :
    ∃ (s key : Bytes) (p' : PState), cfg.maxKeyLength < key.length ∧
      feed F (new cfg line names values) [s] = (p', .completed [], []) ∧
      p'.req.Headers.pairs = [⟨key, b!"v"⟩] := by
  let h := longKeyHead (cfg.maxKeyLength + 15)
  have hnl : (⟨List.replicate (cfg.maxKeyLength + 15) 97, 1, b!"v", true⟩ : Field).isLength = false := by
    have : lower (List.replicate (cfg.maxKeyLength + 15) 97) ≠ b!"content-length" := by
      intro e; have := congrArg List.length e; simp [lower] at this
    simp [Field.isLength, Field.named, this]
  have ok : h.OK := by
    refine ⟨by simp [h, longKeyHead], by simp [h, longKeyHead], (by intro q hq; simp [h, longKeyHead] at hq),
      ⟨⟨Proto.HTTP11, 46, .inr (.inl ⟨rfl, rfl⟩)⟩, by simp [h, longKeyHead], by simp [h, longKeyHead]⟩, ?_⟩
    intro f hf
    simp [h, longKeyHead] at hf
    subst hf
    refine ⟨by simp, ?_, by simp, by simp, by simp, ?_⟩
    · simp [List.replicate_succ]
    · intro hl; rw [hnl] at hl; cases hl
  have clean : h.CleanNames := by
    intro f hf; simp [h, longKeyHead] at hf; subst hf; simp
  have nb : h.NoBareEmpty := by
    intro f hf; simp [h, longKeyHead] at hf; subst hf; simp
  have fits : h.Fits (limits (new cfg line names values)) := by
    constructor
    · simp [h, longKeyHead, Head.lineLength, Head.line, methodName, limits, new, queryPart]; omega
    · simp [h, longKeyHead, limits, new]; exact hnames
    · simp only [h, longKeyHead, limits, new, List.filter_cons, hnl, Bool.not_false, if_true, List.filter_nil]
      exact hvalues
    · exact hnumber
    · intro f hf _; simp [h, longKeyHead] at hf; subst hf; exact hvalue
  obtain ⟨p', extra, rest, e1, e2, _, e4, _⟩ := C01_head_any_segmentation F (new cfg line names values)
    (ready_new _ _ _ _) (by constructor <;> simp [new]) h ok clean nb fits b!"/"
    (.lit (by decide) .nil) [] [h.render] (by simp)
  have hrest : rest = [] := by
    have := congrArg (fun x => x.2.2) e1
    simp only [feed] at this
    split at this <;> simp at this <;> simp [this]
  subst hrest
  simp at e2; subst e2
  refine ⟨h.render, List.replicate (cfg.maxKeyLength + 15) 97, p', by simp, e1, ?_⟩
  rw [e4.headers]
  simp [h, longKeyHead, hnl]

example : ∃ (cfg : HeadersCfg) (line names values : Nat), 16 ≤ line ∧ cfg.maxKeyLength + 15 ≤ names ∧ 3 ≤ values ∧
    1 ≤ cfg.maxNumber ∧ 3 ≤ cfg.maxValueLength ∧ cfg.maxKeyLength = 100 :=
  ⟨{ maxNumber := 50, maxValueLength := 8192, maxKeyLength := 100, maxEncodingTokens := 3 }, 65535, 4096, 65535, by decide⟩

theorem le_sum {x : Nat} {xs : List Nat} (h : x ∈ xs) : x ≤ xs.sum := by
  induction xs with
  | nil => cases h
  | cons y ys ih => rcases List.mem_cons.1 h with rfl | h <;> simp; have := ih h; omega

/-- C06, the part that holds: no name longer than the space for all names together (`Headers.KeySpace.Maximal`) is ever
stored. Missing: `MaxKeyLength` itself, which is the smaller number in the default configuration, is not looked at, see
`C06_key_length_violation`. -/
theorem C06_key_space_partial (F : Fold) (cfg : HeadersCfg) (line names values : Nat) (segs : List Bytes) :
    ∀ x ∈ (feed F (new cfg line names values) segs).1.req.Headers.pairs, x.Key.length ≤ names := by
  intro x hx
  have h := (C05_stored_within_limits F (new cfg line names values) (ready_new _ _ _ _) rfl (by simp [new]) rfl segs).1
  have : x.Key.length ≤ ((feed F (new cfg line names values) segs).1.req.Headers.pairs.map fun x => x.Key.length).sum :=
    le_sum (List.mem_map.2 ⟨x, hx, rfl⟩)
  exact Nat.le_trans this h

/-- C06: the limit is not looked at: two configurations which differ in nothing but `MaxKeyLength` do the same with every
stream. -/
theorem C06_ignored_violation (F : Fold) (cfg : HeadersCfg) (line names values m : Nat) (segs : List Bytes) :
    (feed F (new { cfg with maxKeyLength := m } line names values) segs).2 = (feed F (new cfg line names values) segs).2 ∧
    (feed F (new { cfg with maxKeyLength := m } line names values) segs).1.req = (feed F (new cfg line names values) segs).1.req := by
  have h := feed_rekey F m segs (new cfg line names values)
  exact ⟨congrArg (·.2) h, congrArg (·.1.req) h⟩

/-! ### C07 -/

/-- C07, the part that holds: in an accepted head with exactly one Content-Length line whose value is a
digit string below 2^63, the declared length is that number (any segmentation). Missing: repeated lines,
larger numbers, blanks between digits and empty values, see `C07_content_length_violation`. -/
theorem C07_content_length_partial (F : Fold) (p : PState) (hp : Ready p) (hr : Cleared p.req) (h : Head)
    (ok : h.OK) (clean : h.CleanNames) (nb : h.NoBareEmpty) (fits : h.Fits (limits p)) (path : Bytes)
    (enc : Unescapes h.target path) (after : Bytes) (segs : List Bytes)
    (stream : segs.flatten = h.render ++ after)
    (f : Field) (one : h.fields.filter Field.isLength = [f]) (digits : ∀ c ∈ f.value, isDigit c = true)
    (small : decimal f.value < 2 ^ 63) :
    (feed F p segs).1.req.ContentLength = decimal f.value := by
  obtain ⟨p', extra, rest, e1, _, _, e4, _⟩ :=
    C01_head_any_segmentation F p hp hr h ok clean nb fits path enc after segs stream
  rw [e1]
  simp only
  have hdig : h.lengthDigits = f.value := by
    simp [Head.lengthDigits, one]
    exact digits
  rw [e4.contentLength, hdig]
  generalize decimal f.value = n at small
  exact bmod_small n small

/-- No Content-Length line: the declared length is 0. -/
theorem C07_no_content_length (F : Fold) (p : PState) (hp : Ready p) (hr : Cleared p.req) (h : Head)
    (ok : h.OK) (clean : h.CleanNames) (nb : h.NoBareEmpty) (fits : h.Fits (limits p)) (path : Bytes)
    (enc : Unescapes h.target path) (after : Bytes) (segs : List Bytes)
    (stream : segs.flatten = h.render ++ after) (none : ∀ f ∈ h.fields, f.isLength = false) :
    (feed F p segs).1.req.ContentLength = 0 := by
  obtain ⟨p', extra, rest, e1, _, _, e4, _⟩ :=
    C01_head_any_segmentation F p hp hr h ok clean nb fits path enc after segs stream
  rw [e1]
  simp only
  have hdig : h.lengthDigits = [] := by
    have : h.fields.filter Field.isLength = [] := by
      rw [List.filter_eq_nil_iff]; intro f hf; simp [none f hf]
    simp [Head.lengthDigits, this]
  rw [e4.contentLength, hdig]
  exact bmod_small 0 (by decide)

example : exHead.fields.filter Field.isLength = [⟨b!"CONTENT-length", 2, b!"5", false⟩] ∧
    decimal b!"5" < 2 ^ 63 := ⟨rfl, by decide⟩

/-- The stream `POST / HTTP/1.1`, the given Content-Length lines, empty line. -/
def lengthStream (values : List Bytes) : Bytes :=
  b!"POST / HTTP/1.1" ++ [13, 10] ++ values.flatMap (fun v => b!"Content-Length: " ++ v ++ [13, 10]) ++ [13, 10]

/-- C07 is false: contradicting lengths are concatenated (`5` and `7` give 57), numbers from 2^63 on wrap
around (2^64 + 5 gives 5, 2^63 becomes negative), `1 2` is read as 12 and an empty value as 0; all of these are
accepted. -/
theorem C07_content_length_violation :
    let out := fun vs => ((parse Fold.ascii (new { maxNumber := 5, maxValueLength := 100, maxEncodingTokens := 2 } 100 100 100)
      (lengthStream vs)).2, (parse Fold.ascii (new { maxNumber := 5, maxValueLength := 100, maxEncodingTokens := 2 } 100 100 100)
      (lengthStream vs)).1.req.ContentLength)
    out [b!"5", b!"7"] = (.completed [], 57) ∧ out [b!"18446744073709551621"] = (.completed [], 5) ∧
    out [b!"9223372036854775808"] = (.completed [], -9223372036854775808) ∧
    out [b!"1 2"] = (.completed [], 12) ∧ out [b!""] = (.completed [], 0) := by
  decide +kernel

/-! ### C08 -/

/-- C08, the part that holds: a name without CR is recognised as one of the seven special names exactly when
it equals that name up to letter case. Missing: names with CR. -/
theorem C08_special_names_partial (key : Bytes) (cr : 13 ∉ key) :
    (isContentLengthKey key = true ↔ lower key = b!"content-length") ∧
    (isConnectionKey key = true ↔ lower key = b!"connection") ∧
    (isContentTypeKey key = true ↔ lower key = b!"content-type") ∧
    (isContentEncodingKey key = true ↔ lower key = b!"content-encoding") ∧
    (isTransferEncodingKey key = true ↔ lower key = b!"transfer-encoding") ∧
    (isUpgradeKey key = true ↔ lower key = b!"upgrade") ∧
    (isTrailerKey key = true ↔ lower key = b!"trailer") := by
  rw [isContentLengthKey_eq, isConnectionKey_eq, isContentTypeKey_eq, isContentEncodingKey_eq,
    isTransferEncodingKey_eq, isUpgradeKey_eq, isTrailerKey_eq]
  refine ⟨?_, ?_, ?_, ?_, ?_, ?_, ?_⟩ <;> (rw [named_eq_lower (by decide) cr]; simp)

/-- C08, exactly: a name, whatever its bytes, is recognised as one of the special names exactly when it equals that name up to
letter case after each CR in it is replaced by a hyphen. Missing: C08 wants names with CR not to be recognised. -/
theorem C08_recognised_iff_partial (key : Bytes) :
    let hyphened := key.map (fun c => if c = 13 then 45 else c)
    (isContentLengthKey key = true ↔ lower hyphened = b!"content-length") ∧
    (isConnectionKey key = true ↔ lower hyphened = b!"connection") ∧
    (isContentTypeKey key = true ↔ lower hyphened = b!"content-type") ∧
    (isContentEncodingKey key = true ↔ lower hyphened = b!"content-encoding") ∧
    (isTransferEncodingKey key = true ↔ lower hyphened = b!"transfer-encoding") ∧
    (isUpgradeKey key = true ↔ lower hyphened = b!"upgrade") ∧
    (isTrailerKey key = true ↔ lower hyphened = b!"trailer") := by
  have hcr : (13 : Byte) ∉ key.map (fun c => if c = 13 then 45 else c) := by
    simp only [List.mem_map, not_exists, not_and]
    intro c _ h
    split at h
    · cases h
    · exact absurd h ‹_›
  have hnamed : ∀ name, named name (key.map (fun c => if c = 13 then 45 else c)) = named name key := by
    intro name
    unfold named
    rw [List.map_map]
    congr 1
    apply List.map_congr_left
    intro c _
    show (if c = 13 then (45 : Byte) else c) ||| 32 = c ||| 32
    split
    · rename_i h; rw [h]; decide
    · rfl
  have := C08_special_names_partial _ hcr
  rw [isContentLengthKey_eq, isConnectionKey_eq, isContentTypeKey_eq, isContentEncodingKey_eq,
    isTransferEncodingKey_eq, isUpgradeKey_eq, isTrailerKey_eq] at this ⊢
  simp only [hnamed] at this
  exact this

/-- C08 is false for names with CR: `content` CR `length` counts as Content-Length and frames the body. -/
theorem C08_special_names_violation :
    let s := b!"POST / HTTP/1.1" ++ [13, 10] ++ b!"content" ++ [13] ++ b!"length: 5" ++ [13, 10, 13, 10]
    (parse Fold.ascii exParser s).2 = .completed [] ∧ (parse Fold.ascii exParser s).1.req.ContentLength = 5 ∧
    lower (b!"content" ++ [13] ++ b!"length") ≠ b!"content-length" := by
  decide +kernel

/-! ### C17 -/

/-- C17, the part that holds: for a list of at most `MaxEncodingTokens` non-empty tokens, in any white space
and between any number of empty elements, the encodings are the tokens in order, and `chunked` is set exactly
when one of them is `chunked` up to letter case. Missing: longer lists are not refused
(`C17_transfer_encoding_violation`). -/
theorem C17_transfer_encoding_partial (F : Fold) (value : Bytes) (elems : List Bytes) (max : Nat)
    (list : ListText value elems) (tokens : ∀ t ∈ elems, IsToken t)
    (few : (elems.filter (· ≠ [])).length ≤ max) :
    (parseEncodingString F value max).1 = elems.filter (· ≠ []) ∧
    ((∀ t ∈ elems, ∀ c ∈ t, isPlainTok c = true) →
      ((parseEncodingString F value max).2 = true ↔ ∃ t ∈ elems, lower t = b!"chunked")) := by
  have he := listElems_text list tokens
  rw [parseEncodingString_eq]
  simp only [encTokens, he, few, if_true]
  refine ⟨trivial, ?_⟩
  intro hplain
  rw [List.any_eq_true]
  constructor
  · rintro ⟨t, ht, h⟩
    have ht := (List.mem_filter.1 ht).1
    exact ⟨t, ht, (F.eq_iff_lower (hplain t ht) (by decide)).1 h⟩
  · rintro ⟨t, ht, h⟩
    refine ⟨t, List.mem_filter.2 ⟨ht, ?_⟩, (F.eq_iff_lower (hplain t ht) (by decide)).2 h⟩
    cases t with
    | nil => simp [lower] at h
    | cons _ _ => simp

/-- The same for a whole request: the encodings are those of the last Transfer-Encoding line. -/
theorem C17_request_transfer_partial (F : Fold) (p : PState) (hp : Ready p) (hr : Cleared p.req) (h : Head)
    (ok : h.OK) (clean : h.CleanNames) (nb : h.NoBareEmpty) (fits : h.Fits (limits p)) (path : Bytes)
    (enc : Unescapes h.target path) (after : Bytes) (segs : List Bytes)
    (stream : segs.flatten = h.render ++ after) (value : Bytes) (elems : List Bytes)
    (hlast : h.last b!"transfer-encoding" = some value)
    (list : ListText value elems) (tokens : ∀ t ∈ elems, ∀ c ∈ t, isPlainTok c = true)
    (few : (elems.filter (· ≠ [])).length ≤ p.cfg.maxEncodingTokens) :
    (feed F p segs).1.req.Encoding.Transfer = elems.filter (· ≠ []) ∧
    ((feed F p segs).1.req.Encoding.Chunked = true ↔ ∃ t ∈ elems, lower t = b!"chunked") := by
  have tok : ∀ t ∈ elems, IsToken t := fun t ht c hc => isPlainTok_token c (tokens t ht c hc)
  obtain ⟨p', extra, rest, e1, _, _, e4, _⟩ :=
    C01_head_any_segmentation F p hp hr h ok clean nb fits path enc after segs stream
  obtain ⟨h1, h2⟩ := C17_transfer_encoding_partial F value elems _ list tok few
  have h2 := h2 tokens
  rw [parseEncodingString_eq] at h1 h2
  rw [e1]
  simp only
  rw [e4.chunked, e4.transfer, hlast]
  exact ⟨h1, h2⟩

example : ListText b!"gzip, ,	Chunked" [b!"gzip", [], b!"Chunked"] ∧
    (∀ t ∈ [b!"gzip", [], b!"Chunked"], IsToken t) := by
  refine ⟨?_, ?_⟩
  · exact .cons (s := b!"gzip") ⟨[], [], by simp, by simp, rfl⟩
      (.cons (s := b!" ") ⟨b!" ", [], by simp [isOWS], by simp, rfl⟩
        (.one ⟨[9], [], by simp [isOWS], by simp, rfl⟩))
  · unfold IsToken; decide

/-- C17 is false for longer lists: with at most one token configured, `gzip, chunked` is accepted, without
any encoding and not as chunked. -/
theorem C17_transfer_encoding_violation :
    let s := b!"POST / HTTP/1.1" ++ [13, 10] ++ b!"Transfer-Encoding: gzip, chunked" ++ [13, 10, 13, 10]
    let out := parse Fold.ascii (new { maxNumber := 5, maxValueLength := 100, maxEncodingTokens := 1 } 100 100 100) s
    out.2 = .completed [] ∧ out.1.req.Encoding.Transfer = [] ∧ out.1.req.Encoding.Chunked = false := by
  decide +kernel

/-- C17 is false for what looks like `chunked` but is none: the list is split by `strings.TrimSpace`, so that a no-break space (U+00A0, no white space in RFC 9110, 5.6.3) behind `chunked` is removed. -/
theorem C17_unicode_space_violation :
    let s := b!"POST / HTTP/1.1" ++ [13, 10] ++ b!"Transfer-Encoding: chunked" ++ [0xC2, 0xA0] ++ [13, 10, 13, 10]
    let out := parse Fold.ascii (new { maxNumber := 5, maxValueLength := 100, maxEncodingTokens := 1 } 100 100 100) s
    out.2 = .completed [] ∧ out.1.req.Headers.pairs.map (fun p => p.Value) = [b!"chunked" ++ [0xC2, 0xA0]] ∧
    out.1.req.Encoding.Transfer = [b!"chunked"] ∧ out.1.req.Encoding.Chunked = true := by
  decide +kernel

end Indigo.Props
