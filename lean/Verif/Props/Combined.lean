/-
C102, examples/combined.
-/
import Verif.Props.Examples
import Verif.Spec.Combined

namespace Indigo.Props
open Indigo.Serve Indigo.Spec Indigo.Router Indigo.Spec.Router Indigo.Examples Indigo.Files Indigo.Spec.Files

section
variable {σ : Type} {text : GoErr → Bytes} {env : Env Act} {rt : Runtime Act} {os : Bytes → Opened} {disk : Bytes → Spec.Files.Entry} {ops : List (Op Act)}

/-- The configuration of its file handler. -/
def combinedConf : PathLib.Conf := ⟨25, b!"/static/", b!"examples/combined/static/"⟩

theorem combined_conf : PathLib.newPath b!"/static" b!"examples/combined/static" = some combinedConf := rfl

/-- `LogRequests`, which does nothing here. -/
abbrev logging : Middleware Act := Middleware.logRequests (fun _ _ => pure ()) () []

theorem combined_made {F : Fold} (h : combined F text os = some ops) :
    declared ops = [((b!"/stress", .GET), logging (Middleware.recover text id stressful)), ((b!"/", .POST), logging (indexSay F text)), ((b!"/shutdown", .POST), logging shutdown),
      ((b!"/hello/world", .GET), logging world), ((b!"/hello/easter", .GET), logging (easter F))] ∧
    catchers ops = [(b!"/static", logging (Static.act text os combinedConf))] ∧
    (∀ r, mutated ops r = redirecting b!"/favicon.ico" b!"/static/favicon.ico" (redirecting b!"/" b!"/static/index.html" r)) ∧
    errorHandlers (Spec.Router.defaults F text) ops = (Spec.Router.defaults F text).map (fun e => (e.1, logging e.2)) := by
  unfold combined Static.op at h
  rw [combined_conf] at h
  cases h
  exact ⟨rfl, rfl, fun r => rfl, rfl⟩

theorem logging_eq (h : Handler Act) (r : Request) : logging h r = (h r).bind pure := by
  show (h r).bind _ = _
  congr 1
  funext x
  obtain ⟨f, r⟩ := x
  simp only
  split <;> rfl

theorem logging_pure {h : Handler Act} {r : Request} {x : Fields × Request} (e : h r = pure x) : logging h r = pure x := by
  rw [logging_eq, e]; rfl

theorem logging_polite {E : Setup σ (Runtime Act)} {h : Handler Act} (p : Polite E h) : Polite E (logging h) where
  request r w f r' hr := by
    refine p.request r w f r' ?_
    rw [logging_eq, run_bind] at hr
    revert hr
    rcases (h r).run E.P E.maxAlloc w with ⟨_ | x, w'⟩
    · exact id
    · exact id
  hijacked r w := by
    have := p.hijacked r w
    rw [logging_eq, run_bind]
    revert this
    rcases (h r).run E.P E.maxAlloc w with ⟨_ | x, w'⟩
    · exact id
    · exact id

theorem say_polite (E : Setup σ (Runtime Act)) : Polite E (indexSay E.F text) where
  request r w f r' h := by
    unfold indexSay at h
    split at h
    · cases h; exact ⟨rfl, rfl, rfl, rfl, rfl, id⟩
    · simp only [Act.run] at h
      split at h <;> cases h <;> exact ⟨rfl, rfl, rfl, rfl, rfl, id⟩
  hijacked r w := by
    unfold indexSay
    split
    · rfl
    · simp only [Act.run]
      split <;> rfl

theorem easter_header (F : Fold) (f : Fields) : f.header F b!"Easter" [b!"Egg"] = some { f with Headers := f.Headers ++ [⟨b!"Easter", b!"Egg"⟩] } := by
  have h1 : F.eq b!"Easter" b!"content-type" = false := by
    rw [Bool.eq_false_iff]; intro h; exact absurd ((F.eq_iff_lower (by decide) (by decide)).1 h) (by decide)
  have h2 : F.eq b!"Easter" b!"transfer-encoding" = false := by
    rw [Bool.eq_false_iff]; intro h; exact absurd ((F.eq_iff_lower (by decide) (by decide)).1 h) (by decide)
  simp [Fields.header, h1, h2]

theorem easter_pure (F : Fold) (r : Request) : easter F r = pure (
    if r.Headers.has F b!"easter" then { Fields.new with Code := 418, Headers := [⟨b!"Easter", b!"Egg"⟩], Body := b!"You have discovered an easter egg! Congratulations!" }
    else { Fields.new with Body := b!"Pretty ordinary page, isn't it?" }, r) := by
  unfold easter
  split
  · rw [easter_header]; rfl
  · rfl

theorem combined_polite (E : Setup σ (Runtime Act)) (h : combined E.F text os = some ops) : AllHandlers E.F text ops (Polite E) := by
  obtain ⟨h1, h2, -, h4⟩ := combined_made h
  refine ⟨?_, ?_, ?_⟩
  · rw [h1]
    intro d hd
    simp only [List.mem_cons, List.not_mem_nil, or_false] at hd
    rcases hd with rfl | rfl | rfl | rfl | rfl
    · exact logging_polite (polite_pure _ _ (fun r => ⟨_, rfl⟩))
    · exact logging_polite (say_polite E)
    · exact logging_polite (polite_pure _ _ (fun r => ⟨_, rfl⟩))
    · exact logging_polite (polite_pure _ _ (fun r => ⟨_, rfl⟩))
    · exact logging_polite (polite_pure _ _ (fun r => ⟨_, easter_pure E.F r⟩))
  · rw [h2]
    intro c hc
    rw [List.mem_singleton.1 hc]
    exact logging_polite (act_polite E _)
  · rw [h4]
    intro e he
    simp only [Spec.Router.defaults, List.map_cons, List.map_nil, List.mem_cons, List.not_mem_nil, or_false] at he
    rcases he with rfl | rfl <;> exact logging_polite (polite_pure _ _ (fun r => ⟨_, rfl⟩))

theorem combined_methods {F : Fold} (h : combined F text os = some ops) (path : Bytes) : methodsOf ops path =
    if path ∈ [b!"/stress", b!"/hello/world", b!"/hello/easter"] then [.GET] else if path ∈ [b!"/", b!"/shutdown"] then [.POST] else [] := by
  unfold methodsOf
  rw [(combined_made h).1]
  by_cases h1 : path ∈ [b!"/stress", b!"/hello/world", b!"/hello/easter"]
  · rw [if_pos h1]
    simp only [List.mem_cons, List.not_mem_nil, or_false] at h1
    rcases h1 with rfl | rfl | rfl <;> rfl
  · rw [if_neg h1]
    by_cases h2 : path ∈ [b!"/", b!"/shutdown"]
    · rw [if_pos h2]
      simp only [List.mem_cons, List.not_mem_nil, or_false] at h2
      rcases h2 with rfl | rfl <;> rfl
    · rw [if_neg h2, List.filter_eq_nil_iff]
      intro m _ hm
      simp only [List.any_cons, List.any_nil, Bool.or_false, decide_eq_true_eq, Prod.mk.injEq, Bool.or_eq_true] at hm
      simp only [List.mem_cons, List.not_mem_nil, or_false, not_or] at h1 h2
      rcases hm with ⟨e, -⟩ | ⟨e, -⟩ | ⟨e, -⟩ | ⟨e, -⟩ | ⟨e, -⟩
      · exact h1.1 e.symm
      · exact h2.1 e.symm
      · exact h2.2 e.symm
      · exact h1.2.1 e.symm
      · exact h1.2.2 e.symm

/-- The path of a request as it is routed. -/
theorem combined_arriving {F : Fold} (h : combined F text os = some ops) (r : Request) :
    (arriving ops r).Path = aimed r.Path ∧ (arriving ops r).Method = r.Method ∧ (arriving ops r).Headers = r.Headers ∧ Untouched r (mutated ops r) := by
  have : arriving ops r = { mutated ops r with Path := UriNormalize.normalize (mutated ops r).Path } := rfl
  rw [this, (combined_made h).2.2.1]
  unfold redirecting aimed
  by_cases h1 : r.Path = b!"/"
  · rw [if_pos h1, if_pos h1, if_neg (show b!"/static/index.html" ≠ b!"/favicon.ico" by decide)]
    exact ⟨show UriNormalize.normalize b!"/static/index.html" = b!"/static/index.html" by decide +kernel, rfl, rfl, ⟨rfl, rfl, rfl, rfl, rfl, id⟩⟩
  · rw [if_neg h1, if_neg h1]
    by_cases h2 : r.Path = b!"/favicon.ico"
    · rw [if_pos h2, if_pos h2]
      exact ⟨show UriNormalize.normalize b!"/static/favicon.ico" = b!"/static/favicon.ico" by decide +kernel, rfl, rfl, ⟨rfl, rfl, rfl, rfl, rfl, id⟩⟩
    · rw [if_neg h2, if_neg h2]
      exact ⟨rfl, rfl, rfl, ⟨rfl, rfl, rfl, rfl, rfl, id⟩⟩

/-- No request is routed to `/`. -/
theorem aimed_root (p : Bytes) : aimed p ≠ b!"/" := by
  unfold aimed
  split
  · decide
  · split
    · decide
    · rename_i h _
      intro e
      exact h ((normalize_root p).1 e)

theorem combined_readable (p : Proto) (code : Status.Code) (hs : List Pair) (b : Bytes) (h : hs ∈ [[], [⟨b!"Allow", b!"GET"⟩], [⟨b!"Allow", b!"POST"⟩], [⟨b!"Easter", b!"Egg"⟩]])
    (hc : code ∈ [200, 405, 418, 500]) : Readable (Config.default.defaultHeaders.getD []) p { Fields.new with Code := code, Headers := hs, Body := b } := by
  refine readable_plain p code hs b ?_ ?_ ?_ ?_
  · simp only [List.mem_cons, List.not_mem_nil, or_false] at h
    rcases h with rfl | rfl | rfl | rfl <;> unfold NameOK NoBreak <;> decide
  · simp only [List.mem_cons, List.not_mem_nil, or_false] at h
    rcases h with rfl | rfl | rfl | rfl <;> decide
  · simp only [List.mem_cons, List.not_mem_nil, or_false] at hc
    rcases hc with rfl | rfl | rfl | rfl <;> decide
  · simp only [List.mem_cons, List.not_mem_nil, or_false] at hc
    rcases hc with rfl | rfl | rfl | rfl <;> decide

/-- What its handlers answer. -/
theorem combined_answers {F : Fold} (made : combined F text os = some ops) (gives : Gives os disk) {r r' : Request} {h : Handler Act} (root : r.Path ≠ b!"/") (echo : ¬ Echoed ops (.static ops) r)
    (hc : Chosen F text ops (.static ops) r h r') :
    ∃ f, h r' = pure (f, r') ∧ (∀ p, (∀ x, disk x ≠ .file []) ∨ p ≠ Proto.HTTP10 → Readable (Config.default.defaultHeaders.getD []) p f) ∧
      CombinedReply disk r.Method r.Path (r.Headers.has F b!"easter") f.Code f.ContentType (sentBody f) (f.Headers.map (fun h => (h.Key, h.Value))) ∧
      stripOWS f.ContentType = f.ContentType := by
  obtain ⟨h1, h2, h3, h4⟩ := combined_made made
  have html : stripOWS b!"text/html" = b!"text/html" := by decide
  have byGet : ∀ {x}, x ∈ declared ops → x.1.2 = .GET → r.Path = x.1.1 → r.Method = .GET ∨ r.Method = .HEAD → ∀ ms, h = x.2 → r' = onRoute r [] ms →
      ∃ f, h r' = pure (f, r') ∧ (∀ p, Readable (Config.default.defaultHeaders.getD []) p f) ∧
        CombinedReply disk r.Method r.Path (r.Headers.has F b!"easter") f.Code f.ContentType (sentBody f) (f.Headers.map (fun h => (h.Key, h.Value))) ∧
        f.ContentType = b!"text/html" := by
    rintro ⟨⟨path, meth⟩, hh⟩ hx hmeth hp hm ms rfl rfl
    simp only at hmeth hp
    subst hmeth
    rw [h1] at hx
    simp only [List.mem_cons, List.not_mem_nil, or_false, Prod.mk.injEq, reduceCtorEq, and_false, false_and, false_or] at hx
    rcases hx with ⟨⟨rfl, -⟩, rfl⟩ | ⟨⟨rfl, -⟩, rfl⟩ | ⟨⟨rfl, -⟩, rfl⟩
    · exact ⟨_, logging_pure rfl, fun p => combined_readable p 500 [] [] (by simp) (by simp), .stress hp hm, rfl⟩
    · exact ⟨_, logging_pure rfl, fun p => combined_readable p 200 [] _ (by simp) (by simp), .world hp hm, rfl⟩
    · have hh : (onRoute r [] ms).Headers = r.Headers := rfl
      refine ⟨_, logging_pure (easter_pure F _), ?_⟩
      rw [hh]
      by_cases he : r.Headers.has F b!"easter" = true
      · rw [if_pos he]
        exact ⟨fun p => combined_readable p 418 [⟨b!"Easter", b!"Egg"⟩] _ (by simp) (by simp), .egg hp hm he, rfl⟩
      · rw [if_neg he]
        exact ⟨fun p => combined_readable p 200 [] _ (by simp) (by simp), .ordinary hp hm (by simpa using he), rfl⟩
  cases hc with
  | route hf _ hd =>
    obtain ⟨rfl, rfl, -⟩ := hf
    by_cases hpost : r.Method = .POST
    · have hd' := hd
      rw [h1, hpost] at hd'
      simp only [List.mem_cons, List.not_mem_nil, or_false, Prod.mk.injEq, reduceCtorEq, and_false, false_and, false_or, and_true] at hd'
      rcases hd' with ⟨e, -⟩ | ⟨e, rfl⟩
      · exact absurd e root
      · exact ⟨_, logging_pure rfl, fun p _ => combined_readable p 418 [] [] (by simp) (by simp), .shutdown e hpost, html⟩
    · have hget : r.Method = .GET := by
        have hd' := hd
        rw [h1] at hd'
        simp only [List.mem_cons, List.not_mem_nil, or_false, Prod.mk.injEq] at hd'
        rcases hd' with ⟨⟨-, e⟩, -⟩ | ⟨⟨-, e⟩, -⟩ | ⟨⟨-, e⟩, -⟩ | ⟨⟨-, e⟩, -⟩ | ⟨⟨-, e⟩, -⟩ <;> first | exact e | exact absurd e hpost
      obtain ⟨f, k1, k2, k3, k4⟩ := byGet hd hget rfl (.inl hget) _ rfl rfl
      exact ⟨f, k1, fun p _ => k2 p, k3, by rw [k4]; exact html⟩
  | head hf _ hm _ hd =>
    obtain ⟨rfl, rfl, -⟩ := hf
    obtain ⟨f, k1, k2, k3, k4⟩ := byGet hd rfl rfl (.inr hm) _ rfl rfl
    exact ⟨f, k1, fun p _ => k2 p, k3, by rw [k4]; exact html⟩
  | notAllowed hf hp hn hh he =>
    obtain ⟨rfl, rfl, hroute⟩ := hf
    rename_i ms
    have : handlerFor F text ops Status.MethodNotAllowed =
        some (logging (fun req => pure ({ Fields.new with Code := 405, Headers := [⟨b!"Allow", req.Env.AllowedMethods⟩] }, req))) := by
      unfold handlerFor
      rw [h4]
      rfl
    rw [this] at he
    cases he
    have ht : r.Method ≠ .TRACE := fun e => echo ⟨e, r.Path, [], ⟨rfl, rfl, hroute⟩, by rw [← e]; exact hn⟩
    rw [combined_methods made] at hn hh hp hroute
    by_cases c1 : r.Path ∈ [b!"/stress", b!"/hello/world", b!"/hello/easter"]
    · rw [if_pos c1] at hn hh hp
      have hms : ms = [.GET] := List.perm_singleton.1 hp
      subst hms
      refine ⟨_, logging_pure rfl, fun p _ => combined_readable p 405 [⟨b!"Allow", b!"GET"⟩] [] (by simp) (by simp), .onlyGet c1 ?_, html⟩
      have : r.Method ≠ .HEAD := fun e => absurd (by simp) (hh e)
      simpa [this, ht] using hn
    · rw [if_neg c1] at hn hh hp hroute
      by_cases c2 : r.Path ∈ [b!"/", b!"/shutdown"]
      · rw [if_pos c2] at hn hh hp
        have hms : ms = [.POST] := List.perm_singleton.1 hp
        subst hms
        have c3 : r.Path = b!"/shutdown" := by simpa [root] using c2
        exact ⟨_, logging_pure rfl, fun p _ => combined_readable p 405 [⟨b!"Allow", b!"POST"⟩] [] (by simp) (by simp), .onlyPost c3 (by simpa [ht] using hn), html⟩
      · rw [if_neg c2] at hroute
        exact absurd rfl hroute
  | @caught pre params _ hf _ hk hpre _ =>
    rw [h2] at hk
    cases List.mem_singleton.1 hk
    obtain ⟨f, k1, k2, k3⟩ := act_reply (text := text) (ss := [b!"static"]) (by simp) (by unfold CleanPart; decide) (by decide) gives combinedConf combined_conf
      { r with Params := params } hpre
    refine ⟨f, logging_pure k1, fun p hp => file_readable k2 default_framing ?_, ?_, k2.type.2⟩
    · rcases hp with hp | hp
      · cases ha : f.Attachment.content with
        | none => exact .inr (.inl rfl)
        | some x =>
          have := k2.attachment
          rw [ha] at this
          exact .inl (reply_nonempty k3 hp this.2.2.2)
      · exact .inr (.inr hp)
    · rw [k2.headers]
      refine .file ?_ k3
      intro e
      simp only [List.mem_cons, List.not_mem_nil, or_false] at e
      rcases e with e | e | e | e <;> (rw [e] at hpre; revert hpre; decide)
  | notFound hf _ hk he =>
    have : handlerFor F text ops Status.NotFound = some (logging (fun req => pure (match req.Env.Error with
      | none => Fields.new
      | some (.http e) => { Fields.new with Code := e.Code }
      | some e => { Fields.new with Code := 500, Body := text e }, req))) := by
      unfold handlerFor
      rw [h4]
      rfl
    rw [this] at he
    cases he
    refine ⟨_, logging_pure rfl, fun p _ => readable_plain p 404 [] [] (by simp) (by simp) (by decide) (by decide), .file ?_ (.outside (hk _ (by rw [h2]; exact List.mem_singleton.2 rfl))), html⟩
    intro e
    refine hf r.Path [] ⟨rfl, rfl, ?_⟩
    rw [combined_methods made]
    simp only [List.mem_cons, List.not_mem_nil, or_false] at e
    rcases e with e | e | e | e <;> rw [e] <;> decide

theorem has_egg {E : Setup σ (Runtime Act)} {T : Nat} {remote post e s after seen world} (del : Delivered E T remote post e s after seen world) :
    seen.Headers.has E.F b!"easter" = s.head.fields.any (fun f => !f.isLength && E.F.eq f.name b!"easter") := by
  have := hasLoop_spec E.F b!"easter" ((s.head.fields.filter (fun f => !f.isLength)).map (fun f => (f.name, f.value)))
  rw [Storage.has, del.carries.headers]
  rw [List.map_map] at this
  rw [show (List.map (fun f => (⟨f.name, f.value⟩ : Pair)) (s.head.fields.filter (fun f => !f.isLength))) =
    List.map ((fun e : Bytes × Bytes => (⟨e.1, e.2⟩ : Pair)) ∘ fun f => (f.name, f.value)) (s.head.fields.filter (fun f => !f.isLength)) from rfl, this]
  rw [List.any_map, List.any_filter]
  rfl

/-- **C102**, examples/combined. Whatever well-formed requests are sent to it one after another on a connection, in whatever segmentation: each is answered, in order, as `CombinedReply` says; the files are those on the disk.
There are no empty files, or no clients of HTTP/1.0 (see `C88_empty_file_violation`). -/
theorem C102_combined_partial (E : Setup σ (Runtime Act)) (dec : DecodesChunked E.P) (router : E.router = Router.impl E.F .panic) (enc : EncToken) (remote : Bytes)
    (program : combined E.F text os = some ops) (gives : Gives os disk) (made : make E.F text env ops = some rt)
    (cl : Client) (quiet : Quiet cl) (writes : NoWriteError cl) (post : List (Bytes × Option GoErr)) (silent : Silent post)
    (ss : List Sending) (ok : ∀ s ∈ ss, SendableWith E.F Config.default s) (stream : cl.stream = ss.flatMap Sending.bytes)
    (empty : (∀ p, disk p ≠ .file []) ∨ ∀ s ∈ ss, ¬ IsVersion s.head.version Proto.HTTP10)
    (upgrade : ∀ s ∈ ss, s.head.last b!"upgrade" = none) (keep : ∀ s ∈ ss.dropLast, KeepsOpen s.head) :
    ∃ frames msgs,
      (serve E (newConn E.P Config.default enc remote rt (followedBy cl post))).1.client.written = cl.written ++ frames ∧
      readReplies (ss.map (fun s => s.head.method)) frames.flatten = some msgs ∧ msgs.length = ss.length ∧
      ∀ i : Nat, ∀ (s : Sending) (m : Msg), ss[i]? = some s → msgs[i]? = some m →
        ∃ code type body hs,
          CombinedReply disk s.head.method (aimed s.path) (s.head.fields.any (fun f => !f.isLength && E.F.eq f.name b!"easter")) code type body hs ∧
          m.code = code ∧ m.rest = (if s.head.method = .HEAD then [] else body) ∧ (b!"Content-Type", type) ∈ m.fields ∧ ∀ h ∈ hs, h ∈ m.fields := by
  have made' := combined_made program
  have hgood := C87_trace (text := text) (env := env) (rt := rt) E dec router Config.default (by decide) (default_defaults_any E.F) default_framing enc remote _ made
    (.static ops) (fun s => (∀ p, disk p ≠ .file []) ∨ ¬ IsVersion s.head.version Proto.HTTP10)
    (.inl ⟨rfl, by
      intro d hd
      rw [made'.1] at hd
      simp only [List.mem_cons, List.not_mem_nil, or_false] at hd
      rcases hd with rfl | rfl | rfl | rfl | rfl
      · show (123 : Byte) ∉ b!"/stress"; decide
      · show (123 : Byte) ∉ b!"/"; decide
      · show (123 : Byte) ∉ b!"/shutdown"; decide
      · show (123 : Byte) ∉ b!"/hello/world"; decide
      · show (123 : Byte) ∉ b!"/hello/easter"; decide⟩)
    (fun r => (combined_arriving program r).2.2.2) (combined_polite E program) ?_ (by decide) cl quiet writes post silent ss ?_ stream upgrade keep
  · obtain ⟨frames, msgs, h1, h2, h3, h4⟩ := hgood
    refine ⟨frames, msgs, h1, h2, h3, ?_⟩
    intro i s m hi hm
    obtain ⟨history, e, after, seen, world, -, del, -, hecho, hserve⟩ := h4 i s m hi hm
    obtain ⟨a1, a2, a3, -⟩ := combined_arriving program seen
    by_cases he : Echoed ops (.static ops) (arriving ops seen)
    · obtain ⟨k1, k2, -⟩ := hecho he
      obtain ⟨hmeth, route, values, ⟨-, -, hroute⟩, -⟩ := he
      rw [a2, del.carries.method] at hmeth
      rw [a1, combined_methods program, del.path] at hroute
      refine ⟨200, b!"message/http", m.rest, [], .trace ?_ hmeth, k1, by rw [hmeth, if_neg (by decide)], k2, by simp⟩
      have := aimed_root s.path
      by_cases c1 : aimed s.path ∈ [b!"/stress", b!"/hello/world", b!"/hello/easter"]
      · simp only [List.mem_cons, List.not_mem_nil, or_false] at c1 ⊢
        rcases c1 with h | h | h <;> simp [h]
      · rw [if_neg c1] at hroute
        by_cases c2 : aimed s.path ∈ [b!"/", b!"/shutdown"]
        · simp only [List.mem_cons, List.not_mem_nil, or_false] at c2 ⊢
          rcases c2 with h | h
          · exact absurd h this
          · simp [h]
        · rw [if_neg c2] at hroute
          exact absurd rfl hroute
    obtain ⟨h, r, f, r', left, hch, hrun, hcode, hrest, ds, hsub, hfields⟩ := hserve he
    obtain ⟨f', k1, -, k3, k4⟩ := combined_answers program gives (by rw [a1]; exact aimed_root _) he hch
    rw [k1] at hrun
    cases hrun
    rw [a1, a2, a3, has_egg del, del.path, del.carries.method] at k3
    refine ⟨_, _, _, _, k3, hcode, hrest, ?_, ?_⟩
    · rw [hfields]
      simp [k4]
    · intro h hh
      have : stripOWS h.2 = h.2 := by
        generalize f.Headers.map (fun h => (h.Key, h.Value)) = hs at k3 hh
        revert k3
        generalize f.ContentType = ct
        generalize f.Code = co
        generalize sentBody f = sb
        intro k3
        cases k3 <;> simp only [List.mem_cons, List.not_mem_nil, or_false] at hh <;> first | (rw [hh]; decide)
      rw [hfields]
      refine List.mem_map.2 ⟨h, by simp only [List.mem_append]; exact .inl (.inl (.inl hh)), ?_⟩
      rw [this]
  · intro remote post e s after seen world h r _ hg del he hch
    obtain ⟨a1, -⟩ := combined_arriving program seen
    obtain ⟨f, h1, h2, -⟩ := combined_answers program gives (by rw [a1]; exact aimed_root _) he hch
    refine ⟨f, r, _, by rw [h1]; rfl, h2 _ ?_⟩
    rcases hg with hg | hg
    · exact .inl hg
    · exact .inr (fun hp => hg (by rw [← hp]; exact del.carries.proto))
  · intro s hs
    refine ⟨ok s hs, ?_⟩
    rcases empty with h | h
    · exact .inl h
    · exact .inr (h s hs)

/-- **C102 (violation)**, examples/combined. The program has a handler for POST requests to `/`, which is to refuse those without a header named talking (with 451). It is never called: the alias of `/` makes all requests for `/` requests for
a file, and the file is what the client gets, without having been allowed to talk. -/
theorem C102_combined_violation (E : Setup σ (Runtime Act)) (dec : DecodesChunked E.P) (router : E.router = Router.impl E.F .panic) (enc : EncToken) (remote : Bytes)
    (program : combined E.F text os = some ops) (gives : Gives os disk) (made : make E.F text env ops = some rt)
    (cl : Client) (quiet : Quiet cl) (writes : NoWriteError cl) (post : List (Bytes × Option GoErr)) (silent : Silent post)
    (s : Sending) (ok : SendableWith E.F Config.default s) (stream : cl.stream = s.bytes) (upgrade : s.head.last b!"upgrade" = none)
    (path : s.path = b!"/") (method : s.head.method = .POST) (talking : ∀ f ∈ s.head.fields, E.F.eq f.name b!"talking" = false)
    (page : Bytes) (index : disk b!"examples/combined/static/index.html" = .file page) (full : ∀ p, disk p ≠ .file []) :
    ((b!"/", .POST), logging (indexSay E.F text)) ∈ declared ops ∧
    (∀ seen : Request, Carries E.F Config.default.maxEncodingTokens.toNat s.head seen → ∀ x w, (indexSay E.F text seen).run E.P E.maxAlloc w = x → x.1 = some ({ Fields.new with Code := 451 }, seen)) ∧
    ∃ frames msg,
      (serve E (newConn E.P Config.default enc remote rt (followedBy cl post))).1.client.written = cl.written ++ frames ∧
      readReplies [.POST] frames.flatten = some [msg] ∧ msg.code = 200 ∧ msg.rest = page := by
  refine ⟨by rw [(combined_made program).1]; simp, ?_, ?_⟩
  · rintro seen carries x w rfl
    have : seen.Headers.value E.F b!"talking" = [] := by
      have h := getLoop_spec E.F b!"talking" ((s.head.fields.filter (fun f => !f.isLength)).map (fun f => (f.name, f.value)))
      have h0 : firstValue E.F.eq b!"talking" ((s.head.fields.filter (fun f => !f.isLength)).map (fun f => (f.name, f.value))) = none := by
        unfold firstValue
        rw [List.find?_eq_none.2 ?_]
        · rfl
        · intro e he
          obtain ⟨f, hf, rfl⟩ := List.mem_map.1 he
          simp [talking f (List.mem_filter.1 hf).1]
      rw [h0, List.map_map] at h
      have : seen.Headers.pairs = List.map ((fun e : Bytes × Bytes => (⟨e.1, e.2⟩ : Pair)) ∘ fun f => (f.name, f.value)) (s.head.fields.filter (fun f => !f.isLength)) := carries.headers
      rw [Storage.value, Storage.valueOr, Storage.get, this, h]
    rw [indexSay, this, if_pos (by decide)]
    rfl
  · obtain ⟨frames, msgs, h1, h2, h3, h4⟩ := C102_combined_partial E dec router enc remote program gives made cl quiet writes post silent [s]
      (by intro t ht; rw [List.mem_singleton.1 ht]; exact ok) (by simpa using stream) (.inl full)
      (by intro t ht; rw [List.mem_singleton.1 ht]; exact upgrade) (by simp)
    match msgs, h3 with
    | [msg], _ =>
      obtain ⟨code, type, body, hs, k, k1, k2, -⟩ := h4 0 s msg rfl rfl
      refine ⟨frames, msg, h1, by rw [← h2]; simp [method], ?_⟩
      rw [k1, k2, method, if_neg (by decide)]
      rw [path, show aimed b!"/" = b!"/static/index.html" from rfl] at k
      cases k with
      | file _ k =>
        have ht : Spec.Files.target b!"/static" b!"examples/combined/static" b!"/static/index.html" = b!"examples/combined/static/index.html" := by decide +kernel
        cases k with
        | outside h => exact absurd (by decide) h
        | dots _ h => rw [ht] at h; exact absurd h ((Indigo.Static.isSafe_iff _).1 (by decide +kernel))
        | missing _ _ h => rw [ht, index] at h; cases h
        | directory _ _ h => rw [ht, index] at h; cases h
        | broken _ _ h => rw [ht, index] at h; cases h
        | file _ _ h _ => rw [ht, index] at h; cases h; exact ⟨rfl, rfl⟩
      | onlyGet h => exact absurd h (by decide)
      | trace h => exact absurd h (by decide)
      | _ h => exact absurd h (by decide)

end

/-! ### The hypotheses are met -/

/-- The disk, with two files. -/
def combinedDisk : Bytes → Spec.Files.Entry := fun p =>
  if p = b!"examples/combined/static/index.html" then .file b!"<p>"
  else if p = b!"examples/combined/static/style.css" then .file b!"p{}"
  else .missing

/-- The operating system, which gives files in pieces of one byte. -/
def combinedOS : Bytes → Opened := fun p =>
  match combinedDisk p with
  | .missing => .missing
  | .broken => .noStat
  | .directory => .directory
  | .file content => .file (content.map (fun c => ([c], none)) ++ [([], some .eof)]) content.length

theorem combined_files {p content : Bytes} (h : combinedDisk p = .file content) : content = b!"<p>" ∨ content = b!"p{}" := by
  unfold combinedDisk at h
  split at h
  · cases h; exact .inl rfl
  · split at h
    · cases h; exact .inr rfl
    · cases h

theorem combined_gives : Gives combinedOS combinedDisk := by
  intro p
  unfold combinedOS
  cases h : combinedDisk p with
  | file content =>
    refine ⟨_, rfl, ?_⟩
    rcases combined_files h with rfl | rfl <;> exact ⟨by decide, by decide, by simp [EndsAlone]⟩
  | _ => rfl

/-- Requests for all there is. -/
def sightseeing : List Sending :=
  [asked .GET b!"/" b!"HTTP/1.1", asked .POST b!"/" b!"HTTP/1.1", asked .GET b!"/stress/" b!"HTTP/1.1", asked .POST b!"/shutdown" b!"HTTP/1.1", asked .GET b!"/shutdown" b!"HTTP/1.1",
    asked .HEAD b!"/hello/world" b!"HTTP/1.1", asked .GET b!"/hello/world" b!"HTTP/1.1", asked .GET b!"/hello/easter" b!"HTTP/1.1", asked .GET b!"/static/style.css" b!"HTTP/1.1",
    asked .GET b!"/favicon.ico" b!"HTTP/1.1", asked .GET b!"/hello" b!"HTTP/1.1", asked .TRACE b!"/stress" b!"HTTP/1.1"]

/-- C102: the hypotheses about examples/combined are met by these requests (the second one is that of the violation), and this is what the client reads. -/
example : Gives combinedOS combinedDisk ∧ (∀ p, combinedDisk p ≠ .file []) ∧
    (∀ s ∈ sightseeing, SendableWith dinerSetup.F Config.default s ∧ s.head.last b!"upgrade" = none ∧ KeepsOpen s.head) ∧
    ((combined dinerSetup.F (fun _ => []) combinedOS).bind (fun ops => make dinerSetup.F (fun _ => []) sampleEnv ops)).isSome ∧
    ((combined dinerSetup.F (fun _ => []) combinedOS).bind (fun ops => make dinerSetup.F (fun _ => []) sampleEnv ops)).bind (fun rt => smallReplies rt sightseeing) =
      some [(200, b!"<p>"), (200, b!"<p>"), (500, []), (418, []), (405, []), (200, []), (200, b!"<h1>Hello, world!</h1>"), (200, b!"Pretty ordinary page, isn't it?"), (200, b!"p{}"), (404, []), (404, []),
        (200, b!"TRACE /stress HTTP/1.1\r\nContent-Length: 0\r\n\r\n")] := by
  refine ⟨combined_gives, ?_, ?_, by decide +kernel, by decide +kernel⟩
  · intro p h
    rcases combined_files h with h | h <;> cases h
  · intro s hs
    simp only [sightseeing, List.mem_cons, List.not_mem_nil, or_false] at hs
    rcases hs with rfl | rfl | rfl | rfl | rfl | rfl | rfl | rfl | rfl | rfl | rfl | rfl <;> exact asked_ok (by decide) (by decide) (by decide) (by decide +kernel)

end Indigo.Props
