/-
C115: cookies are what was said about them while building them.
-/
import Verif.Spec.CookieBuilder
import Verif.Props.EveryFraming

namespace Indigo.Props
open Indigo.Spec Indigo.Serializer Indigo.CookieBuilder Indigo.Spec.CookieBuilder

/-- A field which calls set is what the last call which sets it says. -/
theorem last_said {α : Type} (get : Builder → α) (kind : Call → Option α) (h : ∀ b c, get (b.call c) = (kind c).getD (get b)) :
    ∀ (said : List Call) (b : Builder), get (said.foldl Builder.call b) = (lastSaid said kind).getD (get b) := by
  intro said
  induction said with
  | nil => intro b; rfl
  | cons c said ih =>
    intro b
    rw [List.foldl_cons, ih, h]
    unfold lastSaid
    rw [List.filterMap_cons]
    cases kind c with
    | none => rfl
    | some x => simp [List.getLast?_cons]

/-- The builder which belongs to a description. -/
def builderOf (d : Description) : Builder := d.said.foldl Builder.call (build d.name d.value)

theorem vars_described (steps : List Step) : steps.foldl step [] = (described steps).map builderOf := by
  have key : ∀ (steps : List Step) (ds : List Description), steps.foldl step (ds.map builderOf) = (steps.foldl (fun ds s => match s with
    | .build n v => ds ++ [⟨n, v, []⟩]
    | .call i c => match ds[i]? with
      | some d => ds ++ [⟨d.name, d.value, d.said ++ [c]⟩]
      | none => ds) ds).map builderOf := by
    intro steps
    induction steps with
    | nil => intro ds; rfl
    | cons s steps ih =>
      intro ds
      rw [List.foldl_cons, List.foldl_cons, ← ih]
      congr 1
      cases s with
      | build n v => simp [step, builderOf]
      | call i c =>
        simp only [step, List.getElem?_map]
        cases ds[i]? with
        | none => rfl
        | some d => simp [builderOf]
  exact key steps []

theorem done_said (d : Description) : (builderOf d).done =
    { Name := d.name, Value := d.value, Path := (lastSaid d.said aPath).getD [], Domain := (lastSaid d.said aDomain).getD [], Expires := (lastSaid d.said anExpires).getD none,
      MaxAge := (lastSaid d.said aMaxAge).getD 0, SameSite := (lastSaid d.said aSameSite).getD [], Secure := (lastSaid d.said aSecure).getD false,
      HttpOnly := (lastSaid d.said anHttpOnly).getD false } := by
  have h1 := last_said (fun b => b.cookie.Name) (fun _ => none) (by intro b c; cases c <;> rfl) d.said (build d.name d.value)
  have h2 := last_said (fun b => b.cookie.Value) (fun _ => none) (by intro b c; cases c <;> rfl) d.said (build d.name d.value)
  have h3 := last_said (fun b => b.cookie.Path) aPath (by intro b c; cases c <;> rfl) d.said (build d.name d.value)
  have h4 := last_said (fun b => b.cookie.Domain) aDomain (by intro b c; cases c <;> rfl) d.said (build d.name d.value)
  have h5 := last_said (fun b => b.cookie.Expires) anExpires (by intro b c; cases c <;> rfl) d.said (build d.name d.value)
  have h6 := last_said (fun b => b.cookie.MaxAge) aMaxAge (by intro b c; cases c <;> rfl) d.said (build d.name d.value)
  have h7 := last_said (fun b => b.cookie.SameSite) aSameSite (by intro b c; cases c <;> rfl) d.said (build d.name d.value)
  have h8 := last_said (fun b => b.cookie.Secure) aSecure (by intro b c; cases c <;> rfl) d.said (build d.name d.value)
  have h9 := last_said (fun b => b.cookie.HttpOnly) anHttpOnly (by intro b c; cases c <;> rfl) d.said (build d.name d.value)
  have nothing : ∀ (l : List Call), lastSaid l (fun _ => (none : Option Bytes)) = none := by
    intro l
    have : l.filterMap (fun _ => (none : Option Bytes)) = [] := by induction l <;> simp_all
    rw [lastSaid, this]; rfl
  rw [nothing] at h1 h2
  have ext : ∀ (x y : Cookie), x.Name = y.Name → x.Value = y.Value → x.Path = y.Path → x.Domain = y.Domain → x.Expires = y.Expires → x.MaxAge = y.MaxAge → x.SameSite = y.SameSite →
      x.Secure = y.Secure → x.HttpOnly = y.HttpOnly → x = y := by
    rintro ⟨⟩ ⟨⟩ a b c d e f g h i
    simp_all
  exact ext _ _ h1 h2 h3 h4 h5 h6 h7 h8 h9

/-- **C115.** A program begins cookies (`Build`), and calls methods of builders it has got before, the same one several times too, in any order. Then the cookie of each builder has the name and the value it began with, each attribute is what the last call about it on the way to this builder said,
and attributes nothing was said about are unset: no call changes another builder. -/
theorem C115_built (steps : List Step) :
    (steps.foldl step []).map Builder.done = (described steps).map (fun d =>
      { Name := d.name, Value := d.value, Path := (lastSaid d.said aPath).getD [], Domain := (lastSaid d.said aDomain).getD [], Expires := (lastSaid d.said anExpires).getD none,
        MaxAge := (lastSaid d.said aMaxAge).getD 0, SameSite := (lastSaid d.said aSameSite).getD [], Secure := (lastSaid d.said aSecure).getD false,
        HttpOnly := (lastSaid d.said anHttpOnly).getD false }) := by
  rw [vars_described, List.map_map]
  exact List.map_congr_left (fun d _ => done_said d)

theorem lastSaid_mem {α : Type} {said : List Call} {kind : Call → Option α} {x : α} (h : lastSaid said kind = some x) : ∃ c ∈ said, kind c = some x := by
  have := List.mem_of_getLast? h
  simpa using this

theorem plain_said {d : Description} {kind : Call → Option Bytes} {make : Bytes → Call} (inv : ∀ c t, kind c = some t → c = make t) (h : ∀ t, make t ∈ d.said → CookieBuilder.Plain t) :
    CookieBuilder.Plain ((lastSaid d.said kind).getD []) := by
  cases hl : lastSaid d.said kind with
  | none => exact ⟨by simp, by simp, by simp, by simp, by simp⟩
  | some t =>
    obtain ⟨c, hc, hk⟩ := lastSaid_mem hl
    rw [inv c t hk] at hc
    exact h t hc

theorem described_plain {d : Description} (h : d.OK) :
    CookieBuilder.Plain (builderOf d).done.Path ∧ CookieBuilder.Plain (builderOf d).done.Domain ∧ (∀ t, (builderOf d).done.Expires = some t → CookieBuilder.Plain t) ∧
      CookieBuilder.Plain (builderOf d).done.SameSite := by
  rw [done_said]
  refine ⟨plain_said (make := .path) ?_ h.path, plain_said (make := .domain) ?_ h.domain, ?_, plain_said (make := .sameSite) ?_ h.sameSite⟩
  · intro c t hc; cases c <;> simp_all [aPath]
  · intro c t hc; cases c <;> simp_all [aDomain]
  · intro t ht
    cases hl : lastSaid d.said anExpires with
    | none => simp [hl] at ht
    | some x =>
      obtain ⟨c, hc, hk⟩ := lastSaid_mem hl
      simp only [hl, Option.getD_some] at ht
      subst ht
      cases c <;> simp_all [anExpires]
      exact h.expires t hc
  · intro c t hc; cases c <;> simp_all [aSameSite]

theorem plain_text {t : Bytes} (h : CookieBuilder.Plain t) : CookieText t := by
  refine ⟨h.1, fun c hc => ?_⟩
  obtain ⟨-, -, -, h1, h2⟩ := h
  rw [hc] at h1 h2
  simp only [isBlank, Bool.or_eq_false_iff, beq_eq_false_iff_ne, ne_eq]
  exact ⟨fun e => h1 (by rw [e]), fun e => h2 (by rw [e])⟩

theorem described_ok {d : Description} (h : d.OK) : CookieOK (builderOf d).done := by
  obtain ⟨h1, h2, h3, h4⟩ := described_plain h
  refine ⟨⟨?_, ?_, ?_⟩, ?_, plain_text h1, plain_text h2, fun t ht => plain_text (h3 t ht), plain_text h4⟩
  · rw [done_said]; exact plain_text h.name.1
  · rw [done_said]; exact h.name.2.1
  · rw [done_said]
    intro x hx
    obtain ⟨-, -, a, b⟩ := h.name
    rw [show d.name.head? = some x from hx] at a b
    simp only [isBlank, Bool.or_eq_false_iff, beq_eq_false_iff_ne, ne_eq]
    exact ⟨fun e => a (by rw [e]), fun e => b (by rw [e])⟩
  · rw [done_said]; exact plain_text h.value

theorem mem_joinSemi {x : Byte} : ∀ {ps : List Bytes}, x ∈ joinSemi ps → x = 59 ∨ x = 32 ∨ ∃ p ∈ ps, x ∈ p
  | [], h => by cases h
  | [a], h => .inr (.inr ⟨a, by simp, h⟩)
  | a :: b :: ps, h => by
    simp only [joinSemi, List.mem_append, List.mem_cons, List.not_mem_nil, or_false] at h
    rcases h with (h | h | h) | h
    · exact .inr (.inr ⟨a, by simp, h⟩)
    · exact .inl h
    · exact .inr (.inl h)
    · rcases mem_joinSemi (ps := b :: ps) h with h | h | ⟨p, hp, hx⟩
      · exact .inl h
      · exact .inr (.inl h)
      · exact .inr (.inr ⟨p, List.mem_cons_of_mem _ hp, hx⟩)

theorem described_clean {d : Description} (h : d.OK) : NoBreak (setCookieValue (builderOf d).done) := by
  obtain ⟨h1, h2, h3, h4⟩ := described_plain h
  have hname : (builderOf d).done.Name = d.name := by rw [done_said]
  have hvalue : (builderOf d).done.Value = d.value := by rw [done_said]
  generalize (builderOf d).done = c at h1 h2 h3 h4 hname hvalue
  have nb : ∀ t, CookieBuilder.Plain t → NoBreak t := fun t ht => ⟨ht.2.2.1, ht.2.1⟩
  have attr : ∀ {k : Bytes} {v : Option Bytes}, NoBreak k → (∀ t, v = some t → NoBreak t) → NoBreak (renderAttr (k, v)) := by
    intro k v hk hv
    cases v with
    | none => exact hk
    | some t =>
      obtain ⟨a, b⟩ := hv t rfl
      exact ⟨by simp [renderAttr, hk.1, a], by simp [renderAttr, hk.2, b]⟩
  have all : ∀ p ∈ ((c.Name, some c.Value) :: writtenAttrs c).map renderAttr, NoBreak p := by
    intro p hp
    obtain ⟨⟨k, v⟩, ha, rfl⟩ := List.mem_map.1 hp
    have hd : ∀ n, NoBreak (decBytes n) := by
      intro n
      refine ⟨fun hm => ?_, fun hm => ?_⟩
      · have := decBytes_digits n _ hm; revert this; decide
      · have := decBytes_digits n _ hm; revert this; decide
    rcases List.mem_cons.1 ha with e | ha
    · cases e
      exact attr (hname ▸ nb _ h.name.1) (fun t ht => by cases ht; exact hvalue ▸ nb _ h.value)
    · simp only [writtenAttrs, List.mem_map] at ha
      obtain ⟨⟨k', v'⟩, ha, e⟩ := ha
      have kv : NoBreak k' ∧ ∀ t, v' = some t → NoBreak t := by
        simp only [cookieAttrs, List.mem_append] at ha
        rcases ha with (((((ha | ha) | ha) | ha) | ha) | ha) | ha
        · split at ha
          · cases ha
          · cases List.mem_singleton.1 ha
            exact ⟨by unfold NoBreak; decide, fun t ht => by cases ht; exact nb _ h1⟩
        · split at ha
          · cases ha
          · cases List.mem_singleton.1 ha
            exact ⟨by unfold NoBreak; decide, fun t ht => by cases ht; exact nb _ h2⟩
        · split at ha
          · cases ha
          · next t he =>
            cases List.mem_singleton.1 ha
            exact ⟨by unfold NoBreak; decide, fun t' ht => by cases ht; exact nb _ (h3 t he)⟩
        · split at ha
          · cases ha
          · cases List.mem_singleton.1 ha
            refine ⟨by unfold NoBreak; decide, fun t ht => ?_⟩
            cases ht
            split
            · exact hd _
            · unfold NoBreak; decide
        · split at ha
          · cases ha
          · cases List.mem_singleton.1 ha
            exact ⟨by unfold NoBreak; decide, fun t ht => by cases ht; exact nb _ h4⟩
        · split at ha
          · cases List.mem_singleton.1 ha
            exact ⟨by unfold NoBreak; decide, fun t ht => by cases ht⟩
          · cases ha
        · split at ha
          · cases List.mem_singleton.1 ha
            exact ⟨by unfold NoBreak; decide, fun t ht => by cases ht⟩
          · cases ha
      dsimp only at e
      split at e
      · cases e
        exact attr (by unfold NoBreak; decide) kv.2
      · cases e
        exact attr kv.1 kv.2
  unfold setCookieValue
  refine ⟨fun hm => ?_, fun hm => ?_⟩
  · rcases mem_joinSemi hm with e | e | ⟨p, hp, hx⟩
    · revert e; decide
    · revert e; decide
    · exact (all p hp).1 hx
  · rcases mem_joinSemi hm with e | e | ⟨p, hp, hx⟩
    · revert e; decide
    · revert e; decide
    · exact (all p hp).2 hx

theorem attributes_said (d : Description) :
    (cookieAttrs (builderOf d).done).map (fun a => if a.1 = b!"Max-Age" then (b!"MaxAge", a.2) else a) = attributes d.said := by
  rw [done_said]
  unfold cookieAttrs attributes
  simp only [List.map_append]
  congr 1
  congr 1
  congr 1
  congr 1
  congr 1
  congr 1
  · rcases lastSaid d.said aPath with _ | _ | ⟨x, t⟩ <;> simp
  · rcases lastSaid d.said aDomain with _ | _ | ⟨x, t⟩ <;> simp
  · rcases lastSaid d.said anExpires with _ | _ | t <;> simp
  · rcases lastSaid d.said aMaxAge with _ | n
    · simp
    · simp only [Option.getD_some]
      by_cases h0 : n = 0
      · simp [h0]
      · by_cases h1 : n < 0
        · simp [h0, h1, show ¬ n > 0 by omega]
        · simp [h0, h1, show n > 0 by omega]
  · rcases lastSaid d.said aSameSite with _ | _ | ⟨x, t⟩ <;> simp
  · rcases lastSaid d.said aSecure with _ | _ | _ <;> simp
  · rcases lastSaid d.said anHttpOnly with _ | _ | _ <;> simp

/-- **C115 (part).** A program builds cookies, and adds the `picked` ones of them to a response without attachment, whose head has no line breaks otherwise. Then the client gets, for each of them, in order, a field `Set-Cookie`, in which an independent reader finds the name, the value, and what was said last
about each attribute, and nothing else. (What is missing: the attribute `Max-Age` is sent as `MaxAge`, which clients ignore, see `C34_max_age_violation`.) -/
theorem C115_told_partial (F : Fold) (n : Int) {defaults : List (Bytes × Bytes)}
    (hd : DefaultsOK F defaults) (history : List Sent) (p : Proto) {version : Bytes} (hp : versionName p = some version)
    (req : Request) (steps : List Step) (ok : ∀ d ∈ described steps, d.OK) (picked : List Nat)
    (f : Fields) (clean : ResponseClean f) (bare : f.Cookies = []) (ha : f.Attachment.content = none)
    (hh : ∀ h ∈ f.Headers, h.Key ≠ b!"Set-Cookie") (hdef : ∀ kv ∈ defaults, kv.1 ≠ b!"Set-Cookie") (c : Client) :
    ∃ head, ((serializerAfter F n defaults history).write F p req (f.cookie (picked.filterMap (fun i => ((steps.foldl step [])[i]?).map Builder.done))) c).client.written =
        c.written ++ [head ++ if req.Method = .HEAD then [] else f.Body] ∧
      ∀ more, ∃ m, readMsg (head ++ more) = some m ∧ m.rest = more ∧
        (m.fields.filter (fun kv => kv.1 == b!"Set-Cookie")).map (fun kv => readSetCookie kv.2) =
          picked.filterMap (fun i => ((described steps)[i]?).map (fun d => (d.name, some d.value) :: attributes d.said)) := by
  have hcookies : (f.cookie (picked.filterMap (fun i => ((steps.foldl step [])[i]?).map Builder.done))).Cookies =
      picked.filterMap (fun i => ((described steps)[i]?).map (fun d => (builderOf d).done)) := by
    simp only [Fields.cookie, bare, List.nil_append]
    congr 1
    funext i
    rw [vars_described, List.getElem?_map, Option.map_map]
    rfl
  have mem : ∀ ck ∈ picked.filterMap (fun i => ((described steps)[i]?).map (fun d => (builderOf d).done)), ∃ d ∈ described steps, ck = (builderOf d).done := by
    intro ck hck
    obtain ⟨i, -, hi⟩ := List.mem_filterMap.1 hck
    cases hx : (described steps)[i]? with
    | none => simp [hx] at hi
    | some d =>
      simp only [hx, Option.map_some, Option.some.injEq] at hi
      exact ⟨d, List.mem_of_getElem? hx, hi.symm⟩
  obtain ⟨head, h1, h2⟩ := C34_every_cookie_partial F n hd history p hp req
    (f := f.cookie (picked.filterMap (fun i => ((steps.foldl step [])[i]?).map Builder.done)))
    ⟨clean.headers, clean.contentType, clean.transferEncoding, by
      rw [hcookies]
      intro ck hck
      obtain ⟨d, hd, rfl⟩ := mem ck hck
      exact described_clean (ok d hd)⟩ ha (by
      rw [hcookies]
      intro ck hck
      obtain ⟨d, hd, rfl⟩ := mem ck hck
      exact described_ok (ok d hd)) hh hdef c
  refine ⟨head, h1.symm, fun more => ?_⟩
  obtain ⟨m, a, b, e⟩ := h2 more
  refine ⟨m, a, b, e.trans ?_⟩
  rw [hcookies, List.map_filterMap]
  congr 1
  funext i
  rw [Option.map_map]
  congr 1
  funext d
  simp only [Function.comp]
  rw [attributes_said, done_said]

/-! ### The hypotheses are met -/

/-- A session cookie, from which two others branch off. -/
def jar : List Step :=
  [.build b!"id" b!"42", .call 0 (.path b!"/"), .call 1 (.secure true), .call 1 (.maxAge (-1)), .call 3 (.path b!"/a"), .call 2 (.httpOnly true), .call 5 (.secure false)]

theorem jar_described : described jar = [⟨b!"id", b!"42", []⟩, ⟨b!"id", b!"42", [.path b!"/"]⟩, ⟨b!"id", b!"42", [.path b!"/", .secure true]⟩, ⟨b!"id", b!"42", [.path b!"/", .maxAge (-1)]⟩,
    ⟨b!"id", b!"42", [.path b!"/", .maxAge (-1), .path b!"/a"]⟩, ⟨b!"id", b!"42", [.path b!"/", .secure true, .httpOnly true]⟩,
    ⟨b!"id", b!"42", [.path b!"/", .secure true, .httpOnly true, .secure false]⟩] := by decide

theorem jar_ok : ∀ d ∈ described jar, d.OK := by
  rw [jar_described]
  intro d hd
  simp only [List.mem_cons, List.not_mem_nil, or_false] at hd
  have e : CookieBuilder.Plain b!"id" := by unfold CookieBuilder.Plain; decide
  have e' : CookieBuilder.Plain b!"42" := by unfold CookieBuilder.Plain; decide
  have p : CookieBuilder.Plain b!"/" := by unfold CookieBuilder.Plain; decide
  have p' : CookieBuilder.Plain b!"/a" := by unfold CookieBuilder.Plain; decide
  rcases hd with rfl | rfl | rfl | rfl | rfl | rfl | rfl
  all_goals
    refine ⟨⟨e, by decide, by decide, by decide⟩, e', ?_, ?_, ?_, ?_⟩ <;> intro t ht <;>
      simp only [List.mem_cons, List.not_mem_nil, or_false, Call.path.injEq, reduceCtorEq, false_or] at ht
  all_goals first | (rcases ht with rfl | rfl <;> assumption) | (subst ht; assumption) | cases ht

set_option maxRecDepth 20000 in
/-- C115: three of the cookies in a response. -/
example : (∀ d ∈ described jar, d.OK) ∧ (jar.foldl step []).length = 7 ∧
    [2, 4, 6].filterMap (fun i => ((described jar)[i]?).map (fun d => (d.name, some d.value) :: attributes d.said)) =
      [[(b!"id", some b!"42"), (b!"Path", some b!"/"), (b!"Secure", none)], [(b!"id", some b!"42"), (b!"Path", some b!"/a"), (b!"MaxAge", some b!"0")],
       [(b!"id", some b!"42"), (b!"Path", some b!"/"), (b!"HttpOnly", none)]] ∧
    sentBytes ((Serializer.new 16 []).write Fold.ascii Proto.HTTP11 sampleReq (({ Body := b!"hi" } : Fields).cookie ([2, 4, 6].filterMap (fun i => ((jar.foldl step [])[i]?).map Builder.done))) {}) =
      b!"HTTP/1.1 200 OK\r\nContent-Type: text/html\r\nSet-Cookie: id=42; Path=/; Secure\r\nSet-Cookie: id=42; Path=/a; MaxAge=0\r\nSet-Cookie: id=42; Path=/; HttpOnly\r\nContent-Length: 2\r\n\r\nhi" :=
  ⟨jar_ok, by decide, by decide +kernel, by decide +kernel⟩

end Indigo.Props
