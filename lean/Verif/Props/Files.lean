/-
C88 Directories of files, end to end.
-/
import Verif.Spec.Files
import Verif.Props.Static
import Verif.Props.Program

namespace Indigo.Props
open Indigo.Serve Indigo.Spec Indigo.Router Indigo.Spec.Router Indigo.Spec.Files Indigo.Files Indigo.Spec.Static PathLib

/-! ### Types by extension -/

private theorem ext_unique {path e e' : Bytes} (h : HasExtension path e) (h' : HasExtension path e') : e = e' := by
  obtain ⟨⟨a, rfl⟩, h1, h2⟩ := h
  obtain ⟨⟨a', h3⟩, h4, h5⟩ := h'
  rcases List.append_eq_append_iff.1 h3 with ⟨x, _, hx⟩ | ⟨x, _, hx⟩
  · cases x with
    | nil => simpa using hx
    | cons c x => simp at hx; exact absurd (by rw [hx.2]; simp) h1
  · cases x with
    | nil => simpa using hx.symm
    | cons c x => simp at hx; exact absurd (by rw [hx.2]; simp) h4

private theorem extLoop_spec (l : Bytes) : ∀ acc, 46 ∉ acc → 47 ∉ acc →
    (extLoop acc l = [] ∧ ∀ e, ¬ HasExtension (l.reverse ++ acc) e) ∨ ∃ e, extLoop acc l = DOT :: e ∧ HasExtension (l.reverse ++ acc) e := by
  induction l with
  | nil =>
    intro acc h1 h2
    refine .inl ⟨rfl, ?_⟩
    rintro e ⟨⟨a, h⟩, -⟩
    simp only [List.reverse_nil, List.nil_append] at h
    exact h1 (by rw [h]; simp)
  | cons c l ih =>
    intro acc h1 h2
    rw [extLoop, List.reverse_cons, List.append_assoc, List.singleton_append]
    by_cases hs : c = SLASH
    · subst hs
      rw [if_pos rfl]
      refine .inl ⟨rfl, ?_⟩
      rintro e ⟨⟨a, h⟩, -, h3⟩
      rcases List.append_eq_append_iff.1 h with ⟨x, _, hx⟩ | ⟨x, _, hx⟩
      · cases x with
        | nil => simp [SLASH] at hx
        | cons d x => simp at hx; exact h1 (by rw [hx.2]; simp)
      · cases x with
        | nil => simp [SLASH] at hx
        | cons d x => simp at hx; exact h3 (by rw [hx.2]; simp [SLASH])
    · rw [if_neg hs]
      by_cases hd : c = DOT
      · subst hd
        rw [if_pos rfl]
        exact .inr ⟨acc, rfl, ⟨_, rfl⟩, h1, h2⟩
      · rw [if_neg hd]
        have := ih (c :: acc) (by simp only [List.mem_cons, not_or]; exact ⟨fun h => hd h.symm, h1⟩)
          (by simp only [List.mem_cons, not_or]; exact ⟨fun h => hs h.symm, h2⟩)
        simpa using this

private theorem ext_spec (path : Bytes) : (ext path = [] ∧ ∀ e, ¬ HasExtension path e) ∨ ∃ e, ext path = DOT :: e ∧ HasExtension path e := by
  have := extLoop_spec path.reverse [] (by simp) (by simp)
  simpa [ext] using this

private theorem table_types : ∀ x ∈ extension, ∃ y ∈ types, y.1 = x.2 ∧ x.1.tail ∈ y.2 ∧ x.1.head? = some DOT ∧ x.2 ≠ [] := by decide +kernel

private theorem types_table : ∀ x ∈ types, ∀ e ∈ x.2, extension.lookup (DOT :: e) = some x.1 := by decide +kernel

private theorem lookup_mem {k v : Bytes} : ∀ {l : List (Bytes × Bytes)}, l.lookup k = some v → (k, v) ∈ l
  | [], h => by cases h
  | (a, b) :: l, h => by
    rw [List.lookup_cons] at h
    split at h
    · rename_i hk
      cases h
      rw [eq_of_beq hk]
      simp
    · exact List.mem_cons_of_mem _ (lookup_mem h)

/-- What `TryFile` puts into Content-Type for this path. -/
def sentType (path : Bytes) : Bytes :=
  let mime := (extension.lookup (ext path)).getD []
  if mime.length = 0 then b!"application/octet-stream" else mime

/-- **C88**, the type: it is the one of the extension (what follows the last dot of the last element of the path), in lower case; otherwise the file is just bytes. -/
theorem C88_type (path t : Bytes) : FileType path t ↔ t = sentType path := by
  have key : FileType path (sentType path) := by
    unfold sentType
    cases hl : extension.lookup (ext path) with
    | some v =>
      obtain ⟨y, hy, h1, h2, h3, h4⟩ := table_types _ (lookup_mem hl)
      simp only at h1 h2 h3 h4
      have : v.length ≠ 0 := by cases v with
        | nil => exact absurd rfl h4
        | cons => simp
      simp only [Option.getD_some, if_neg this]
      rcases ext_spec path with ⟨h, -⟩ | ⟨e, h, he⟩
      · rw [h] at h3; cases h3
      · rw [h] at h2
        exact .inl ⟨e, y.2, he, by rw [← h1]; exact hy, h2⟩
    | none =>
      simp only [Option.getD_none, List.length_nil, if_true]
      refine .inr ⟨?_, rfl⟩
      intro e x he hx hin
      have := types_table x hx e hin
      rcases ext_spec path with ⟨-, h⟩ | ⟨e', h, he'⟩
      · exact h e he
      · rw [h, ext_unique he' he, this] at hl
        cases hl
  constructor
  · intro h
    rcases h with ⟨e, es, h1, h2, h3⟩ | ⟨h1, h2⟩ <;> rcases key with ⟨e', es', k1, k2, k3⟩ | ⟨k1, k2⟩
    · have a := types_table _ h2 e h3
      have b := types_table _ k2 e' k3
      rw [ext_unique k1 h1, a] at b
      exact Option.some.inj b
    · exact absurd h3 (k1 e _ h1 h2)
    · exact absurd k3 (h1 e' _ k1 k2)
    · rw [h2, k2]
  · rintro rfl
    exact key

/-- C88: types of some paths. -/
example : FileType b!"/srv/www/a.b/index.html" b!"text/html; charset=utf-8" ∧ FileType b!"/srv/www.d/README" b!"application/octet-stream" ∧
    FileType b!"/srv/X.PNG" b!"application/octet-stream" ∧ FileType b!"a.tar.gz" b!"application/gzip" := by
  simp only [C88_type]
  decide +kernel

/-! ### The handler -/

variable {text : GoErr → Bytes} {os : Bytes → Opened} {disk : Bytes → Files.Entry}

private theorem clean_dir {ss : List Bytes} (hne : ss ≠ []) (hc : ∀ s ∈ ss, CleanPart s) : separator (pathOf ss) = SLASH ∧ dir (pathOf ss) = pathOf ss := by
  have hsep : separator (pathOf ss) = SLASH := by
    cases ss with
    | nil => exact absurd rfl hne
    | cons s ss => simp [separator, pathOf, SLASH]
  refine ⟨hsep, ?_⟩
  unfold dir
  rw [hsep, if_neg]
  intro h
  obtain ⟨l, s, rfl⟩ : ∃ l s, ss = l ++ [s] := ⟨ss.dropLast, ss.getLast hne, (List.dropLast_concat_getLast hne).symm⟩
  have hs := hc s (by simp)
  have : (pathOf (l ++ [s])).getLast? = s.getLast? := by
    obtain ⟨x, y, hxy⟩ : ∃ x y, s = x ++ [y] := ⟨s.dropLast, s.getLast hs.1, (List.dropLast_concat_getLast hs.1).symm⟩
    subst hxy
    simp only [pathOf, List.flatMap_append, List.flatMap_cons, List.flatMap_nil, List.append_nil]
    rw [← List.cons_append, ← List.append_assoc, List.getLast?_concat, List.getLast?_concat]
  rw [this] at h
  exact hs.2.2.2 (List.mem_of_getLast? h)

private theorem static_target {ss : List Bytes} (hne : ss ≠ []) (hc : ∀ s ∈ ss, CleanPart s) (root path : Bytes) (hp : pathOf ss <+: path) (n : Nat) :
    Static.target ⟨n, dir (pathOf ss) ++ [separator (pathOf ss)], dir root ++ [separator root]⟩ path = Files.target (pathOf ss) root path := by
  obtain ⟨h1, h2⟩ := clean_dir hne hc
  rw [h1, h2]
  unfold Static.target Files.target
  obtain ⟨rest, rfl⟩ := hp
  cases rest with
  | nil =>
    rw [List.append_nil, if_pos rfl, List.drop_of_length_le (by simp), List.append_nil]
    simp only [List.length_append, List.length_singleton]
    rw [show (dir root).length + 1 + (pathOf ss).length - ((pathOf ss).length + 1) = (dir root).length by omega]
    simp
  | cons c rest =>
    rw [if_neg (by intro h; have := congrArg List.length h; simp at this)]
    rw [List.take_of_length_le (by simp; omega)]
    simp

/-- **C88**, the buffer: what earlier requests have left in the memory shared by all requests does not matter to requests served one at a time. -/
theorem C88_buffer (pre root : Bytes) (c : Conf) (hc : newPath pre root = some c) (earlier : List Bytes) (path : Bytes) :
    (Static.serve c (Static.serveAll c earlier {}) path).1 = (Static.serve c {} path).1 := by
  have hmax : c.maxPrefixLen = max c.prefix_.length c.replaceWith.length := by
    unfold newPath at hc
    split at hc
    · cases hc; rfl
    · cases hc
  rw [(Static.serve_spec c _ path (Static.serveAll_ok c earlier {} (by simp [Static.Mem.Ok]) hmax) hmax).2,
    (Static.serve_spec c {} path (by simp [Static.Mem.Ok]) hmax).2]

/-- The response of `TryFile` and the handler, with what they say. -/
private theorem answer_reply (gives : Gives os disk) (pre root path : Bytes) (hp : pre <+: path) :
    ∀ p, p = target pre root path → ¬ HasDots p →
      let f := Fields.new.file text (answer os p)
      FileReply disk pre root path f.Code f.ContentType (sentBody f) := by
  rintro p rfl hd
  have hg := gives (target pre root path)
  cases he : disk (target pre root path) with
  | missing =>
    rw [he] at hg
    simp only [answer, hg]
    exact .missing hp hd he
  | broken =>
    rw [he] at hg
    simp only [answer, hg]
    exact .broken hp hd he
  | directory =>
    rw [he] at hg
    simp only [answer, hg]
    exact .directory hp hd he
  | file content =>
    rw [he] at hg
    obtain ⟨r, h1, h2, h3, h4⟩ := hg
    simp only [answer, h1]
    have ht : FileType (target pre root path) (sentType (target pre root path)) := (C88_type _ _).2 rfl
    have := FileReply.file hp hd he ht
    rw [← h2] at this
    exact this

/-- The response `f` is one of a directory which is served: no headers, no cookies, and either no attachment and no body, or the content of a file. -/
structure FilePlain (f : Fields) : Prop where
  headers : f.Headers = []
  cookies : f.Cookies = []
  coding : f.TransferEncoding = []
  type : NoBreak f.ContentType ∧ stripOWS f.ContentType = f.ContentType
  code : f.Code = 200 ∨ f.Code = 404 ∨ f.Code = 500
  attachment : match f.Attachment.content with
    | none => f.Body = []
    | some r => readerEnd r = .eof ∧ EndsAlone r ∧ f.Attachment.size = (readerData r).length ∧ f.Code = 200

private theorem table_clean : ∀ x ∈ extension, NoBreak x.2 ∧ stripOWS x.2 = x.2 := by unfold NoBreak; decide +kernel

private theorem type_clean (path : Bytes) : NoBreak (sentType path) ∧ stripOWS (sentType path) = sentType path := by
  unfold sentType
  cases h : extension.lookup (ext path) with
  | none => simp only [Option.getD_none, List.length_nil, if_true]; unfold NoBreak; decide +kernel
  | some v =>
    have := table_clean _ (lookup_mem h)
    simp only [Option.getD_some]
    split
    · unfold NoBreak; decide +kernel
    · exact this

private theorem html_clean : NoBreak b!"text/html" ∧ stripOWS b!"text/html" = b!"text/html" := by unfold NoBreak; decide +kernel

private theorem answer_plain (gives : Gives os disk) (p : Bytes) : FilePlain (Fields.new.file text (answer os p)) := by
  have hg := gives p
  cases he : disk p with
  | missing => rw [he] at hg; simp only [answer, hg]; exact ⟨rfl, rfl, rfl, html_clean, .inr (.inl rfl), rfl⟩
  | broken => rw [he] at hg; simp only [answer, hg]; exact ⟨rfl, rfl, rfl, html_clean, .inr (.inr rfl), rfl⟩
  | directory => rw [he] at hg; simp only [answer, hg]; exact ⟨rfl, rfl, rfl, html_clean, .inr (.inl rfl), rfl⟩
  | file content =>
    rw [he] at hg
    obtain ⟨r, h1, h2, h3, h4⟩ := hg
    simp only [answer, h1]
    refine ⟨rfl, rfl, rfl, type_clean p, .inl rfl, ?_⟩
    exact ⟨h3, h4, by rw [h2]; rfl, rfl⟩

theorem missing_plain : FilePlain (Fields.new.error text (some (.http Status.ErrNotFound)) []) :=
  ⟨rfl, rfl, rfl, html_clean, .inr (.inl rfl), rfl⟩

/-- **C88**, the handler: called with a path below its prefix, it answers with the file named by the rest of the path, with its type and its content; with 404 if there
is none, if it is a directory or if there are two dots in a row in its path; and does nothing to the request. -/
theorem act_reply {ss : List Bytes} (hne : ss ≠ []) (hc : ∀ s ∈ ss, CleanPart s) {root : Bytes} (hr : root ≠ []) (gives : Gives os disk) (c : Conf)
    (hconf : newPath (pathOf ss) root = some c) (r : Request) (hp : pathOf ss <+: r.Path) :
    ∃ f, Static.act text os c r = pure (f, r) ∧ FilePlain f ∧ FileReply disk (pathOf ss) root r.Path f.Code f.ContentType (sentBody f) := by
  have hpre : pathOf ss ≠ [] := by
    cases ss with
    | nil => exact absurd rfl hne
    | cons => simp [pathOf]
  rw [newPath_eq _ _ hpre hr] at hconf
  cases hconf
  unfold Static.act
  rw [(Static.serve_spec _ {} r.Path (by simp [Static.Mem.Ok]) rfl).2, static_target hne hc root r.Path hp]
  have hl := hp.length_le
  obtain ⟨hsep, hdir⟩ := clean_dir hne hc
  rw [if_neg (by rw [hdir]; simp; omega)]
  by_cases hs : Static.isSafe (target (pathOf ss) root r.Path) = true
  · rw [if_pos hs]
    exact ⟨_, rfl, answer_plain gives _, answer_reply gives _ _ _ hp _ rfl ((Static.isSafe_iff _).1 hs)⟩
  · rw [if_neg hs]
    refine ⟨_, rfl, missing_plain, .dots hp ?_⟩
    exact Classical.not_not.1 (fun h => hs ((Static.isSafe_iff _).2 h))

/-- **C88**, the handler: called with a path below its prefix, it answers with the file named by the rest of the path, with its type and its content; with 404 if there
is none, if it is a directory or if there are two dots in a row in its path; and does nothing to the request. -/
theorem C88_handler (ss : List Bytes) (hne : ss ≠ []) (hc : ∀ s ∈ ss, CleanPart s) (root : Bytes) (hr : root ≠ []) (gives : Gives os disk) (c : Conf)
    (hconf : newPath (pathOf ss) root = some c) (r : Request) (hp : pathOf ss <+: r.Path) :
    ∃ f, Static.act text os c r = pure (f, r) ∧ f.Headers = [] ∧ FileReply disk (pathOf ss) root r.Path f.Code f.ContentType (sentBody f) :=
  let ⟨f, h1, h2, h3⟩ := act_reply hne hc hr gives c hconf r hp
  ⟨f, h1, h2.headers, h3⟩

/-- **C88 (with the buffer).** The same for the handler with its own buffer, whatever requests have been served before with it. -/
theorem C88_handler_buffer (ss : List Bytes) (hne : ss ≠ []) (hc : ∀ s ∈ ss, CleanPart s) (root : Bytes) (hr : root ≠ []) (gives : Gives os disk) (c : Conf)
    (hconf : newPath (pathOf ss) root = some c) (earlier : List Bytes) (r : Request) (hp : pathOf ss <+: r.Path) :
    ∃ f m, Static.handler text (answer os) c r (Static.serveAll c earlier {}) = some ((f, r), m) ∧ f.Headers = [] ∧
      FileReply disk (pathOf ss) root r.Path f.Code f.ContentType (sentBody f) := by
  obtain ⟨f, h1, h2, h3⟩ := C88_handler (text := text) ss hne hc root hr gives c hconf r hp
  have hb := C88_buffer (pathOf ss) root c hconf earlier r.Path
  unfold Static.act at h1
  unfold Static.handler
  cases hs : Static.serve c (Static.serveAll c earlier {}) r.Path with
  | mk t m =>
    rw [hs] at hb
    simp only at hb
    rw [← hb] at h1
    cases t <;> first
      | (simp only at h1; cases h1; exact ⟨_, m, rfl, h2, h3⟩)
      | (simp only at h1; cases h1)

/-! ### The server -/

variable {σ : Type} {env : Env Act} {rt : Runtime Act}

theorem file_readable {f : Fields} (h : FilePlain f) {defaults : List (Bytes × Bytes)} (hd : ∀ d ∈ defaults, framingFields [d] = []) {p : Proto}
    (hp : sentBody f ≠ [] ∨ f.Attachment.content = none ∨ p ≠ Proto.HTTP10) : Readable defaults p f where
  clean := ⟨by rw [h.headers]; simp, h.type.1, by rw [h.coding]; exact noBreak_nil, by rw [h.cookies]; simp⟩
  attachment r hr := by
    have := h.attachment
    rw [hr] at this
    obtain ⟨h1, h2, h3, -⟩ := this
    refine ⟨h1, ?_⟩
    by_cases hz : readerData r = []
    · right
      rw [hz] at h3
      refine ⟨by rw [h3]; exact Int.le_refl _, ?_⟩
      rcases hp with hp | hp | hp
      · exact absurd (by unfold sentBody; rw [hr]; exact hz) hp
      · rw [hr] at hp; cases hp
      · exact hp
    · left
      exact ⟨by rw [h3]; have := List.length_pos_iff.2 hz; omega, h3, h2⟩
  framing := ⟨by rw [h.headers]; simp, hd, h.coding⟩
  final := by rcases h.code with h | h | h <;> rw [h] <;> decide
  noBody hc := by
    exfalso
    revert hc
    rcases h.code with h | h | h <;> rw [h] <;> decide

theorem reply_nonempty {pre root path : Bytes} {code : Nat} {t body : Bytes} (h : FileReply disk pre root path code t body) (hd : ∀ p, disk p ≠ .file [])
    (hc : code = 200) : body ≠ [] := by
  cases h with
  | file h1 h2 h3 _ => rintro rfl; exact hd _ h3
  | _ => cases hc

theorem act_polite (E : Setup σ (Runtime Act)) (c : Conf) : Polite E (Static.act text os c) where
  request r w f r' h := by
    unfold Static.act at h
    split at h <;> cases h <;> exact ⟨rfl, rfl, rfl, rfl, rfl, id⟩
  hijacked r w := by
    unfold Static.act
    split <;> rfl

/-- **C88**: a program which serves the directory `root` under a prefix and does nothing else. A client which sends any requests (as in C71) reads one response to each:
code, type and body are those of `FileReply` for the path without slashes at its end, the fields are some default headers, the type and the size (or the chunked
coding, if the file is empty); HEAD gets the same without a body. There are no empty files, or no clients of HTTP/1.0 (see `C88_empty_file_violation`). -/
theorem C88_files_partial (E : Setup σ (Runtime Act)) (dec : DecodesChunked E.P) (router : E.router = Router.impl E.F .panic) (cfg : Config)
    (size : cfg.bodyMaxSize < 2 ^ 64) (defaults : DefaultsOK E.F (cfg.defaultHeaders.getD [])) (unframed : ∀ d ∈ cfg.defaultHeaders.getD [], framingFields [d] = [])
    (enc : EncToken) (remote : Bytes) (ps : List Bytes) (hne : ps ≠ []) (hc : ∀ s ∈ ps, CleanPart s) (root : Bytes) (hr : root ≠ []) (gives : Gives os disk)
    (op : Op Act) (call : Static.op text os 0 (pathOf ps) root [] = some op) (made : make E.F text env [op] = some rt)
    (buffer : cfg.responseBuffSize < 16 ^ 8) (cl : Client) (quiet : Quiet cl) (writes : NoWriteError cl) (post : List (Bytes × Option GoErr)) (silent : Silent post)
    (ss : List Sending) (ok : ∀ s ∈ ss, SendableWith E.F cfg s ∧ s.head.method ≠ .TRACE) (stream : cl.stream = ss.flatMap Sending.bytes)
    (empty : (∀ p, disk p ≠ .file []) ∨ ∀ s ∈ ss, ¬ IsVersion s.head.version Proto.HTTP10)
    (upgrade : ∀ s ∈ ss, s.head.last b!"upgrade" = none) (keep : ∀ s ∈ ss.dropLast, KeepsOpen s.head) :
    ∃ frames msgs,
      (serve E (newConn E.P cfg enc remote rt (followedBy cl post))).1.client.written = cl.written ++ frames ∧
      readReplies (ss.map (fun s => s.head.method)) frames.flatten = some msgs ∧ msgs.length = ss.length ∧
      ∀ i : Nat, ∀ (s : Sending) (m : Msg), ss[i]? = some s → msgs[i]? = some m →
        ∃ (code : Nat) (type body : Bytes) (ds : List (Bytes × Bytes)) (frame : Bytes × Bytes), FileReply disk (pathOf ps) root (UriNormalize.normalize s.path) code type body ∧
          m.code = code ∧ m.rest = (if s.head.method = .HEAD then [] else body) ∧
          ds.Sublist (cfg.defaultHeaders.getD []) ∧ m.fields = ds.map (fun kv => (kv.1, stripOWS kv.2)) ++ [(b!"Content-Type", type), frame] ∧
          (frame = (b!"Content-Length", decBytes body.length) ∨ (body = [] ∧ frame = (b!"Transfer-Encoding", b!"chunked"))) := by
  obtain ⟨c, hconf, rfl⟩ : ∃ c, newPath (pathOf ps) root = some c ∧ op = .catch 0 (pathOf ps) (Static.act text os c) [] := by
    unfold Static.op at call
    cases h : newPath (pathOf ps) root with
    | none => rw [h] at call; cases call
    | some c => rw [h] at call; cases call; exact ⟨c, rfl, rfl⟩
  have hdecl : declared [Op.catch 0 (pathOf ps) (Static.act text os c) []] = [] := rfl
  have hcatch : catchers [Op.catch 0 (pathOf ps) (Static.act text os c) []] = [(pathOf ps, Static.act text os c)] := by
    show [(GoPath.join (pathOf []) (pathOf ps), _)] = _
    rw [GoPath.join_pathOf [] ps (by simp) hc]
    rfl
  have herr : handlerFor E.F text [Op.catch 0 (pathOf ps) (Static.act text os c) []] Status.NotFound = some (defaultAllErrorsHandler text) := rfl
  have chosen : ∀ seen h r, Chosen E.F text [Op.catch 0 (pathOf ps) (Static.act text os c) []] (.static [Op.catch 0 (pathOf ps) (Static.act text os c) []])
      (arriving [Op.catch 0 (pathOf ps) (Static.act text os c) []] seen) h r →
      ∃ f, h r = pure (f, r) ∧ FilePlain f ∧ FileReply disk (pathOf ps) root (UriNormalize.normalize seen.Path) f.Code f.ContentType (sentBody f) := by
    intro seen h r hch
    have none : ∀ path, methodsOf [Op.catch 0 (pathOf ps) (Static.act text os c) []] path = [] := fun path => rfl
    cases hch with
    | route hf _ _ => exact absurd (none _) hf.2.2
    | head hf _ _ _ _ => exact absurd (none _) hf.2.2
    | notAllowed hf _ _ _ _ => exact absurd (none _) hf.2.2
    | @caught pre params _ _ hl hm hp _ =>
      rw [hcatch, List.mem_singleton] at hm
      cases hm
      exact act_reply hne hc hr gives c hconf { arriving _ seen with Params := params } hp
    | @notFound params _ _ hl hno hh =>
      rw [herr] at hh
      cases hh
      exact ⟨_, rfl, missing_plain, .outside (hno (pathOf ps, Static.act text os c) (by rw [hcatch]; simp))⟩
  have hgood := C87_program (text := text) (env := env) (rt := rt) E dec router cfg size defaults enc remote _ made
    (.static [Op.catch 0 (pathOf ps) (Static.act text os c) []]) (fun s => (∀ p, disk p ≠ .file []) ∨ ¬ IsVersion s.head.version Proto.HTTP10)
    (.inl ⟨rfl, by intro d hd; rw [hdecl] at hd; cases hd⟩) (fun r => ⟨rfl, rfl, rfl, rfl, rfl, id⟩) ?_ ?_ buffer cl quiet writes post silent ss ?_ stream upgrade keep
  · obtain ⟨frames, msgs, h1, h2, h3, h4⟩ := hgood
    refine ⟨frames, msgs, h1, h2, h3, ?_⟩
    intro i s m hi hm
    obtain ⟨e, after, seen, world, h, r, f, r', left, del, hch, hrun, -, hcode, hrest, ds, hsub, hfields⟩ := h4 i s m hi hm
    obtain ⟨f', h5, h6, h7⟩ := chosen seen h r hch
    rw [h5] at hrun
    cases hrun
    rw [del.path] at h7
    have key : ∃ frame, m.fields = ds.map (fun kv => (kv.1, stripOWS kv.2)) ++ [(b!"Content-Type", f.ContentType), frame] ∧
        (frame = (b!"Content-Length", decBytes (sentBody f).length) ∨ (sentBody f = [] ∧ frame = (b!"Transfer-Encoding", b!"chunked"))) := by
      rw [hfields, h6.headers, h6.cookies]
      have ha := h6.attachment
      cases hatt : f.Attachment.content with
      | none =>
        rw [hatt] at ha
        refine ⟨(b!"Content-Length", decBytes f.Body.length), ?_, .inl (by unfold sentBody; rw [hatt])⟩
        simp [h6.type.2, Serializer.stripOWS_decBytes]
      | some x =>
        rw [hatt] at ha
        have hs : sentBody f = readerData x := by unfold sentBody; rw [hatt]
        by_cases hz : f.Attachment.size > 0
        · refine ⟨(b!"Content-Length", decBytes f.Attachment.size.toNat), ?_, .inl (by rw [hs, ha.2.2.1]; rfl)⟩
          simp [h6.type.2, Serializer.stripOWS_decBytes, hz]
        · refine ⟨(b!"Transfer-Encoding", b!"chunked"), ?_, .inr ⟨?_, rfl⟩⟩
          · simp only [hz, if_false]
            simp [h6.type.2]
            decide +kernel
          · rw [hs]
            rw [ha.2.2.1] at hz
            exact List.length_eq_zero_iff.1 (by omega)
    obtain ⟨frame, k1, k2⟩ := key
    exact ⟨_, _, _, ds, frame, h7, hcode, hrest, hsub, k1, k2⟩
  · refine ⟨by rw [hdecl]; simp, by rw [hcatch]; simpa using act_polite E c, ?_⟩
    intro e he
    have : errorHandlers (Spec.Router.defaults E.F text) [Op.catch 0 (pathOf ps) (Static.act text os c) []] =
      [(0, defaultAllErrorsHandler text), (405, defaultMethodNotAllowedHandler E.F text)] := by rw [← defaults_eq]; rfl
    rw [this] at he
    simp only [List.mem_cons, List.not_mem_nil, or_false] at he
    rcases he with rfl | rfl <;> exact polite_pure _ _ (fun r => ⟨_, rfl⟩)
  · intro remote post e s after seen world h r _ hgood del hch
    obtain ⟨f, h1, h2, h3⟩ := chosen seen h r hch
    refine ⟨f, r, _, by rw [h1]; rfl, file_readable h2 unframed ?_⟩
    rcases hgood with hg | hg
    · have := h2.attachment
      cases ha : f.Attachment.content with
      | none => exact .inr (.inl rfl)
      | some x =>
        rw [ha] at this
        exact .inl (reply_nonempty h3 hg this.2.2.2)
    · exact .inr (.inr (fun hp => hg (by rw [← hp]; exact del.carries.proto)))
  · intro s hs
    refine ⟨(ok s hs).1, (ok s hs).2, ?_⟩
    rcases empty with h | h
    · exact .inl h
    · exact .inr (h s hs)

/-! ### The hypotheses are met -/

/-- A disk with a directory, a style sheet and an empty file. -/
def smallDisk : Bytes → Files.Entry := fun p =>
  if p = b!"/srv/www" then .directory
  else if p = b!"/srv/www/x.css" then .file b!"p{}"
  else if p = b!"/srv/www/empty" then .file []
  else .missing

/-- The operating system, which gives files in pieces of one byte. -/
def smallOS : Bytes → Opened := fun p =>
  match smallDisk p with
  | .missing => .missing
  | .broken => .noStat
  | .directory => .directory
  | .file content => .file (content.map (fun c => ([c], none)) ++ [([], some .eof)]) content.length

private theorem small_gives : Gives smallOS smallDisk := by
  intro p
  unfold smallOS
  cases h : smallDisk p with
  | file content =>
    have : content = b!"p{}" ∨ content = [] := by
      unfold smallDisk at h
      split at h
      · cases h
      · split at h
        · cases h; exact .inl rfl
        · split at h
          · cases h; exact .inr rfl
          · cases h
    refine ⟨_, rfl, ?_⟩
    rcases this with rfl | rfl <;> exact ⟨by decide, by decide, by simp [EndsAlone]⟩
  | _ => rfl

/-- A request without a body or header fields. -/
def asked (m : Method) (target version : Bytes) : Sending where
  head := { method := m, target := target, query := none, version := version, crlf := true, fields := [], lastCrlf := true }
  path := target
  body := []
  coded := []

/-- The router which serves the directory, under `/static` of a router with the prefix `group`. -/
def smallRouter (ops : List (Op Act)) (r : Nat) : Option (Runtime Act) :=
  (Static.op (fun _ => []) smallOS r b!"/static" b!"/srv/www/" []).bind (fun op => make Fold.ascii (fun _ => []) sampleEnv (ops ++ [op]))

/-- What clients read who send these requests at once: codes, types and bodies. -/
def smallReplies (rt : Runtime Act) (ss : List Sending) : Option (List (Nat × Bytes)) :=
  (readReplies (ss.map (fun s => s.head.method))
    (serve dinerSetup (newConn dinerSetup.P Config.default 1 b!"1.2.3.4" rt (followedBy (arrive [ss.flatMap Sending.bytes]) []))).1.client.written.flatten).map
    (List.map (fun m => (m.code, m.rest)))

/-- C88: the hypotheses are met by this directory and these requests, one of them of HTTP/1.1 for the empty file; and this is what the client reads. -/
example : Gives smallOS smallDisk ∧ (∀ s ∈ [b!"static"], CleanPart s) ∧ pathOf [b!"static"] = b!"/static" ∧
    (∃ op rt, Static.op (fun _ => []) smallOS 0 (pathOf [b!"static"]) b!"/srv/www/" [] = some op ∧ make dinerSetup.F (fun _ => []) sampleEnv [op] = some rt) ∧
    (∀ d ∈ Config.default.defaultHeaders.getD [], framingFields [d] = []) ∧
    (∀ s ∈ [asked .GET b!"/static/x.css" b!"HTTP/1.1", asked .HEAD b!"/static/x.css/" b!"HTTP/1.1", asked .GET b!"/static/empty" b!"HTTP/1.1"],
      SendableWith dinerSetup.F Config.default s ∧ s.head.method ≠ .TRACE ∧ ¬ IsVersion s.head.version Proto.HTTP10 ∧ KeepsOpen s.head) ∧
    (smallRouter [] 0).bind (fun rt => smallReplies rt [asked .GET b!"/static/x.css" b!"HTTP/1.1", asked .HEAD b!"/static/x.css/" b!"HTTP/1.1", asked .GET b!"/static/empty" b!"HTTP/1.1"]) =
      some [(200, b!"p{}"), (200, []), (200, [])] := by
  have v : ¬ IsVersion b!"HTTP/1.1" Proto.HTTP10 := by
    rintro ⟨sep, ⟨h, -⟩ | ⟨-, h⟩ | ⟨-, h⟩⟩
    · simp at h
    · revert h; decide
    · revert h; decide
  have v' : ∀ p, IsVersion b!"HTTP/1.1" p → persists p [] = true := by
    rintro p ⟨sep, ⟨h, -⟩ | ⟨-, rfl⟩ | ⟨h, -⟩⟩
    · simp at h
    · decide
    · simp at h
  refine ⟨small_gives, by unfold CleanPart; decide, by decide, ⟨_, _, rfl, rfl⟩, by decide +kernel, ?_, by decide +kernel⟩
  have ok : ∀ m target, m ≠ .Unknown → m ≠ .TRACE → target ≠ [] ∧ 10 ∉ target ∧ 63 ∉ target → 37 ∉ target → (asked m target b!"HTTP/1.1").head.lineLength ≤ (headLimits Config.default).line →
      SendableWith Fold.ascii Config.default (asked m target b!"HTTP/1.1") ∧ m ≠ .TRACE ∧ ¬ IsVersion b!"HTTP/1.1" Proto.HTTP10 ∧ KeepsOpen (asked m target b!"HTTP/1.1").head := by
    intro m target h1 h0 h2 h3 h4
    refine ⟨⟨⟨h1, h2, by simp [asked], ⟨⟨Proto.HTTP11, 46, .inr (.inl ⟨rfl, rfl⟩)⟩, by simp [asked], by simp [asked]⟩, by simp [asked]⟩, by simp [Head.CleanNames, asked], by simp [Head.NoBareEmpty, asked],
      ⟨h4, by simp [asked], by simp [asked], by simp [asked], by simp [asked]⟩, pct_lit h3, .sized (by simp [asked, Head.isChunked, Head.last]) rfl rfl, by simp [asked]⟩, h0, v, ?_⟩
    exact ⟨by simp [asked, Head.last], by simpa [asked, Head.last] using v', by simp [asked, Head.last]⟩
  intro s hs
  simp only [List.mem_cons, List.not_mem_nil, or_false] at hs
  rcases hs with rfl | rfl | rfl <;> exact ok _ _ (by decide) (by decide) (by decide) (by decide) (by decide +kernel)

/-- **C88 (violation).** An empty file is sent in the chunked coding, also to clients of HTTP/1.0, which do not know it. -/
theorem C88_empty_file_violation : smallDisk b!"/srv/www/empty" = .file [] ∧
    (smallRouter [] 0).bind (fun rt => smallReplies rt [asked .GET b!"/static/empty" b!"HTTP/1.0"]) = none ∧
    (smallRouter [] 0).bind (fun rt => smallReplies rt [asked .GET b!"/static/x.css" b!"HTTP/1.0"]) = some [(200, b!"p{}")] := by
  refine ⟨rfl, by decide +kernel, by decide +kernel⟩

/-- **C88 (violation).** The prefix matches in the midst of a section: `/static-x.css` gets the file `x.css`. -/
theorem C88_sibling_violation :
    (smallRouter [] 0).bind (fun rt => smallReplies rt [asked .GET b!"/static-x.css" b!"HTTP/1.1"]) = some [(200, b!"p{}")] := by
  decide +kernel

/-- **C88 (violation).** The prefix of a group is not taken off the path: in a group, files are not found. -/
theorem C88_group_violation :
    (smallRouter [.group 0 b!"/api"] 1).bind (fun rt => smallReplies rt [asked .GET b!"/api/static/x.css" b!"HTTP/1.1"]) = some [(404, [])] ∧
    (smallRouter [] 0).bind (fun rt => smallReplies rt [asked .GET b!"/static/x.css" b!"HTTP/1.1"]) = some [(200, b!"p{}")] := by
  refine ⟨by decide +kernel, by decide +kernel⟩

/-- **C88 (violation).** Every method gets the file, for instance DELETE. -/
theorem C88_method_violation :
    (smallRouter [] 0).bind (fun rt => smallReplies rt [asked .DELETE b!"/static/x.css" b!"HTTP/1.1"]) = some [(200, b!"p{}")] := by
  decide +kernel

end Indigo.Props
