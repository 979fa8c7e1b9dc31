/-
What the serializer writes.
-/
import Verif.Proofs.Response
import Verif.Proofs.Chunked

namespace Indigo.Serializer
open Indigo.Spec

/-- Default headers after excluding the names of `hs`. -/
def excludeAll (F : Fold) (hs : List Pair) (ds : List DefaultHeader) : List DefaultHeader :=
  hs.foldl (fun ds h => exclude F h.Key ds) ds

theorem excludeAll_append (F : Fold) (a b : List Pair) (ds) :
    excludeAll F (a ++ b) ds = excludeAll F b (excludeAll F a ds) := by simp [excludeAll]

/-- Text of the default headers which are not excluded. -/
def defaultsText (ds : List DefaultHeader) : Bytes := (ds.filter (fun h => !h.Excluded)).flatMap (·.Full)

theorem renderOwn_eq (F : Fold) (hs : List Pair) : ∀ d : Serializer,
    renderOwn F hs d = { d with buff := d.buff ++ hs.flatMap (fun h => fieldLine (h.Key, h.Value)),
                                defaultHeaders := excludeAll F hs d.defaultHeaders } := by
  induction hs with
  | nil => intro d; simp [renderOwn, excludeAll]
  | cons h hs ih =>
    intro d
    simp only [renderOwn, ih]
    simp [renderHeader, put, fieldLine, excludeAll]

theorem renderDefaults_eq (hs : List DefaultHeader) : ∀ d : Serializer,
    renderDefaults hs d = d.put (defaultsText hs) := by
  induction hs with
  | nil => intro d; simp [renderDefaults, defaultsText, put]
  | cons h hs ih =>
    intro d
    simp only [renderDefaults, ih]
    cases hx : h.Excluded <;> simp [put, defaultsText, hx]

/-- Text of the headers. -/
def headersText (F : Fold) (ds : List DefaultHeader) (f : Fields) : Bytes :=
  f.Headers.flatMap (fun h => fieldLine (h.Key, h.Value)) ++ defaultsText (excludeAll F f.Headers ds) ++
  fieldLine (b!"Content-Type", f.ContentType) ++
  (if f.TransferEncoding = [] then [] else fieldLine (b!"Transfer-Encoding", f.TransferEncoding))

theorem renderHeaders_eq (F : Fold) (d : Serializer) (f : Fields) :
    renderHeaders F d f = { d with buff := d.buff ++ headersText F d.defaultHeaders f,
                                   defaultHeaders := excludeAll F f.Headers d.defaultHeaders } := by
  unfold renderHeaders
  simp only [renderOwn_eq, renderDefaults_eq]
  by_cases h : f.TransferEncoding = []
  · rw [if_neg (by simp [h])]
    simp [headersText, renderKnownHeader, put, fieldLine, h]
  · rw [if_pos (List.length_pos_iff.2 h)]
    simp [headersText, renderKnownHeader, put, fieldLine, h]

/-- Line of a cookie. -/
def cookieLine (c : Cookie) : Bytes := fieldLine (b!"Set-Cookie", setCookieValue c)

theorem joinSemi_flat : ∀ (ps : List Bytes), ps ≠ [] → ps.flatMap (fun p => p ++ b!"; ") = joinSemi ps ++ b!"; " := by
  intro ps
  induction ps with
  | nil => intro h; exact absurd rfl h
  | cons p ps ih =>
    intro _
    cases ps with
    | nil => simp [joinSemi]
    | cons q qs =>
      have := ih (by simp)
      simp only [List.flatMap_cons] at this ⊢
      rw [this]
      simp [joinSemi]

theorem intBytes_nat (n : Nat) : intBytes n = decBytes n := by
  unfold intBytes
  rw [if_neg (by omega)]
  simp

theorem cookieText_eq (c : Cookie) : cookieText c = b!"Set-Cookie: " ++ setCookieValue c ++ b!"; " := by
  have h := joinSemi_flat (((c.Name, some c.Value) :: writtenAttrs c).map renderAttr) (by simp)
  unfold setCookieValue
  rw [List.append_assoc, ← h]
  have hm : ∀ l : List (Bytes × Option Bytes), ∀ m : List (Bytes × Option Bytes),
      ((l ++ m).map (fun a : Bytes × Option Bytes => if a.1 = b!"Max-Age" then (b!"MaxAge", a.2) else a)) =
      (l.map (fun a : Bytes × Option Bytes => if a.1 = b!"Max-Age" then (b!"MaxAge", a.2) else a)) ++
      (m.map (fun a : Bytes × Option Bytes => if a.1 = b!"Max-Age" then (b!"MaxAge", a.2) else a)) := by simp
  unfold cookieText writtenAttrs cookieAttrs
  simp only [hm, List.map_cons, List.map_append, List.flatMap_cons, List.flatMap_append]
  have e1 : (if c.Path.length > 0 then b!"Path=" ++ c.Path ++ b!"; " else []) =
      (((if c.Path = [] then [] else [(b!"Path", some c.Path)]).map
        (fun a : Bytes × Option Bytes => if a.1 = b!"Max-Age" then (b!"MaxAge", a.2) else a)).map renderAttr).flatMap
          (fun p => p ++ b!"; ") := by
    by_cases h : c.Path = []
    · simp [h]
    · rw [if_pos (List.length_pos_iff.2 h), if_neg h]; simp [renderAttr]
  have e2 : (if c.Domain.length > 0 then b!"Domain=" ++ c.Domain ++ b!"; " else []) =
      (((if c.Domain = [] then [] else [(b!"Domain", some c.Domain)]).map
        (fun a : Bytes × Option Bytes => if a.1 = b!"Max-Age" then (b!"MaxAge", a.2) else a)).map renderAttr).flatMap
          (fun p => p ++ b!"; ") := by
    by_cases h : c.Domain = []
    · simp [h]
    · rw [if_pos (List.length_pos_iff.2 h), if_neg h]; simp [renderAttr]
  have e4 : (if c.MaxAge ≠ 0 then b!"MaxAge=" ++ (if c.MaxAge > 0 then intBytes c.MaxAge else b!"0") ++ b!"; " else []) =
      (((if c.MaxAge = 0 then [] else [(b!"Max-Age", some (if c.MaxAge > 0 then decBytes c.MaxAge.toNat else b!"0"))]).map
        (fun a : Bytes × Option Bytes => if a.1 = b!"Max-Age" then (b!"MaxAge", a.2) else a)).map renderAttr).flatMap
          (fun p => p ++ b!"; ") := by
    by_cases h : c.MaxAge = 0
    · simp [h]
    · rw [if_pos h, if_neg h]
      by_cases hp : c.MaxAge > 0
      · have : intBytes c.MaxAge = decBytes c.MaxAge.toNat := by
          conv => lhs; rw [show c.MaxAge = ((c.MaxAge.toNat : Nat) : Int) by omega]
          exact intBytes_nat _
        simp [renderAttr, hp, this]
      · simp [renderAttr, hp]
  have e5 : (if c.SameSite.length > 0 then b!"SameSite=" ++ c.SameSite ++ b!"; " else []) =
      (((if c.SameSite = [] then [] else [(b!"SameSite", some c.SameSite)]).map
        (fun a : Bytes × Option Bytes => if a.1 = b!"Max-Age" then (b!"MaxAge", a.2) else a)).map renderAttr).flatMap
          (fun p => p ++ b!"; ") := by
    by_cases h : c.SameSite = []
    · simp [h]
    · rw [if_pos (List.length_pos_iff.2 h), if_neg h]; simp [renderAttr]
  have e6 : (if c.Secure then b!"Secure; " else []) =
      (((if c.Secure then [(b!"Secure", none)] else []).map
        (fun a : Bytes × Option Bytes => if a.1 = b!"Max-Age" then (b!"MaxAge", a.2) else a)).map renderAttr).flatMap
          (fun p => p ++ b!"; ") := by
    cases c.Secure <;> simp [renderAttr]
  have e7 : (if c.HttpOnly then b!"HttpOnly; " else []) =
      (((if c.HttpOnly then [(b!"HttpOnly", none)] else []).map
        (fun a : Bytes × Option Bytes => if a.1 = b!"Max-Age" then (b!"MaxAge", a.2) else a)).map renderAttr).flatMap
          (fun p => p ++ b!"; ") := by
    cases c.HttpOnly <;> simp [renderAttr]
  rw [e1, e2, e4, e5, e6, e7]
  cases c.Expires <;> simp [renderAttr]

theorem renderCookie_eq (d : Serializer) (c : Cookie) : renderCookie d c = d.put (cookieLine c) := by
  unfold renderCookie
  simp only [put, cookieText_eq]
  congr 1
  have e : d.buff ++ (b!"Set-Cookie: " ++ setCookieValue c ++ b!"; ") =
      (d.buff ++ (b!"Set-Cookie: " ++ setCookieValue c)) ++ b!"; " := by simp only [List.append_assoc]
  have h : ((d.buff ++ (b!"Set-Cookie: " ++ setCookieValue c)) ++ b!"; ").length - 2 =
      (d.buff ++ (b!"Set-Cookie: " ++ setCookieValue c)).length := by
    rw [List.length_append (bs := b!"; ")]; rfl
  rw [e, h, List.take_left]
  simp [cookieLine, fieldLine]

theorem renderCookies_eq (cs : List Cookie) : ∀ d : Serializer,
    cs.foldl renderCookie d = d.put (cs.flatMap cookieLine) := by
  induction cs with
  | nil => intro d; simp [put]
  | cons c cs ih => intro d; simp [ih, renderCookie_eq, put]

/-- Text of the status line, without the protocol. -/
def statusText (f : Fields) : Bytes := decBytes f.Code ++ [32] ++ reasonFor f ++ [13, 10]

theorem lookup_mem {α : Type} {k : Nat} {l : List (Nat × α)} {v : α} (h : l.lookup k = some v) : (k, v) ∈ l := by
  induction l with
  | nil => simp at h
  | cons x xs ih =>
    obtain ⟨a, b⟩ := x
    simp only [List.lookup] at h
    split at h
    · rename_i heq
      simp at h heq; subst h; subst heq; simp
    · exact List.mem_cons_of_mem _ (ih h)

/-- Every line of the table of status lines is its code and its reason phrase. -/
theorem lineTable_ok : ∀ kv ∈ Status.lineTable, kv.2 = decBytes kv.1 ++ [32] ++
    (if kv.1 = 101 then b!"Switching Protocol" else Status.Text kv.1) ++ [13, 10] := by decide +kernel

theorem renderResponseLine_eq (d : Serializer) (f : Fields) : d.renderResponseLine f = d.put (statusText f) := by
  unfold renderResponseLine statusText reasonFor
  by_cases h : f.Status = []
  · by_cases hl : Status.Line f.Code = []
    · rw [if_neg (by simp [hl])]
      have hne : f.Code ≠ 101 := by intro h101; rw [h101] at hl; revert hl; decide
      simp [put, hne]
    · rw [if_pos ⟨h, hl⟩]
      unfold Status.Line at hl ⊢
      cases hk : Status.lineTable.lookup f.Code with
      | none => rw [hk] at hl; simp at hl
      | some t =>
        have := lineTable_ok _ (lookup_mem hk)
        simp only at this ⊢
        simp [this, h]
  · rw [if_neg (by simp [h])]
    simp [put, h]

/-! ### Responses without attachment -/

/-- Everything between the protocol and the body. -/
def plainHead (F : Fold) (ds : List DefaultHeader) (f : Fields) : Bytes :=
  statusText f ++ headersText F ds f ++ f.Cookies.flatMap cookieLine ++
    fieldLine (b!"Content-Length", decBytes f.Body.length) ++ [13, 10]

theorem renderPlain_eq (F : Fold) (d : Serializer) (req : Request) (f : Fields) :
    renderPlain F (d.renderResponseLine f) req f =
      { d with buff := d.buff ++ plainHead F d.defaultHeaders f ++ (if req.Method ≠ .HEAD then f.Body else []),
               defaultHeaders := excludeAll F f.Headers d.defaultHeaders } := by
  unfold renderPlain
  simp only [renderResponseLine_eq, renderHeaders_eq, renderCookies_eq, renderContentLength, intBytes_nat]
  by_cases h : req.Method = .HEAD
  · simp [h, put, plainHead, fieldLine]
  · simp [h, put, plainHead, fieldLine]

theorem write_plain (F : Fold) (d : Serializer) (p : Proto) (req : Request) (f : Fields) (c : Client)
    (h : f.Attachment.content = none) :
    write F d p req f c =
      let text := d.buff ++ Proto.toBytes p ++ plainHead F d.defaultHeaders f ++ (if req.Method ≠ .HEAD then f.Body else [])
      { out := .done (if ¬ isKeepAlive F p req.Connection ∧ req.Upgrade = Proto.Unknown then
          some (.http Status.ErrCloseConnection) else (c.write text).1),
        ser := { d with buff := [], defaultHeaders := excludeAll F f.Headers d.defaultHeaders },
        client := (c.write text).2 } := by
  unfold write
  simp only [h]
  rw [renderPlain_eq]
  simp [renderProtocol, put, clear, reset]

/-! ### Default headers over histories -/

/-- A default header with its flag. -/
def mkDefault (kv : Bytes × Bytes) (x : Bool) : DefaultHeader := { Excluded := x, Key := kv.1, Full := fieldLine kv }

theorem processDefaultHeaders_eq (hdrs : List (Bytes × Bytes)) :
    processDefaultHeaders hdrs = hdrs.map (fun kv => mkDefault kv false) := by
  unfold processDefaultHeaders
  apply List.map_congr_left
  intro kv _
  simp [mkDefault, fullHeader, fieldLine]

theorem Fold_eq_comm (F : Fold) (a b : Bytes) : F.eq a b = F.eq b a := by
  simp only [Fold.eq]; exact Bool.eq_iff_iff.2 (by simp; exact ⟨Eq.symm, Eq.symm⟩)

theorem Fold_eq_trans (F : Fold) {a b c : Bytes} (h1 : F.eq a b = true) (h2 : F.eq b c = true) : F.eq a c = true := by
  simp only [Fold.eq, beq_iff_eq] at *; exact h1.trans h2

theorem exclude_eq (F : Fold) (key : Bytes) (defs : List (Bytes × Bytes))
    (hd : defs.Pairwise (fun a b => F.eq a.1 b.1 = false)) (x : Bytes × Bytes → Bool) :
    exclude F key (defs.map (fun kv => mkDefault kv (x kv))) =
      defs.map (fun kv => mkDefault kv (x kv || F.eq kv.1 key)) := by
  induction defs with
  | nil => rfl
  | cons kv defs ih =>
    rw [List.pairwise_cons] at hd
    simp only [List.map_cons, exclude]
    have hk : (mkDefault kv (x kv)).Key = kv.1 := rfl
    rw [hk]
    cases hf : F.eq kv.1 key with
    | true =>
      simp only [if_true]
      have h2 : defs.map (fun kv => mkDefault kv (x kv)) = defs.map (fun kv => mkDefault kv (x kv || F.eq kv.1 key)) := by
        apply List.map_congr_left
        intro kv' hm
        have : F.eq kv'.1 key = false := by
          cases hx : F.eq kv'.1 key with
          | false => rfl
          | true =>
            have h3 := hd.1 kv' hm
            rw [Fold_eq_trans F hf (by rw [Fold_eq_comm]; exact hx)] at h3
            simp at h3
        simp [this]
      rw [h2]
      simp [mkDefault]
    | false =>
      simp only [Bool.false_eq_true, if_false, ih hd.2, Bool.or_false]

theorem excludeAll_eq (F : Fold) (defs : List (Bytes × Bytes))
    (hd : defs.Pairwise (fun a b => F.eq a.1 b.1 = false)) (hs : List Pair) : ∀ (x : Bytes × Bytes → Bool),
    excludeAll F hs (defs.map (fun kv => mkDefault kv (x kv))) =
      defs.map (fun kv => mkDefault kv (x kv || hs.any (fun h => F.eq kv.1 h.Key))) := by
  induction hs with
  | nil => intro x; simp [excludeAll]
  | cons h hs ih =>
    intro x
    have := ih (fun kv => x kv || F.eq kv.1 h.Key)
    simp only [excludeAll, List.foldl_cons] at this ⊢
    rw [exclude_eq F h.Key defs hd x, this]
    simp [Bool.or_assoc]

/-- The default headers after the headers of earlier responses. -/
def defaultsAfter (F : Fold) (defs : List (Bytes × Bytes)) (earlier : List Pair) : List DefaultHeader :=
  defs.map (fun kv => mkDefault kv (earlier.any (fun h => F.eq kv.1 h.Key)))

theorem excludeAll_after (F : Fold) {defs : List (Bytes × Bytes)}
    (hd : defs.Pairwise (fun a b => F.eq a.1 b.1 = false)) (earlier hs : List Pair) :
    excludeAll F hs (defaultsAfter F defs earlier) = defaultsAfter F defs (earlier ++ hs) := by
  unfold defaultsAfter
  rw [excludeAll_eq F defs hd hs (fun kv => earlier.any (fun h => F.eq kv.1 h.Key))]
  simp

theorem defaultsText_after (F : Fold) (defs : List (Bytes × Bytes)) (earlier : List Pair) :
    defaultsText (defaultsAfter F defs earlier) =
      (defs.filter (fun d => !earlier.any (fun h => F.eq d.1 h.Key))).flatMap fieldLine := by
  unfold defaultsText defaultsAfter
  induction defs with
  | nil => rfl
  | cons kv defs ih =>
    simp only [List.map_cons, List.filter_cons, mkDefault]
    simp only [mkDefault] at ih
    cases earlier.any (fun h => F.eq kv.1 h.Key) <;> simp [ih]

theorem plainHead_after (F : Fold) {defs : List (Bytes × Bytes)}
    (hd : defs.Pairwise (fun a b => F.eq a.1 b.1 = false)) (earlier : List Pair) (f : Fields) :
    plainHead F (defaultsAfter F defs earlier) f =
      statusText f ++ (expectedFields F defs earlier f).flatMap fieldLine ++ [13, 10] := by
  unfold plainHead headersText expectedFields
  rw [excludeAll_after F hd, defaultsText_after]
  have hc : cookieLine = fun c => fieldLine (b!"Set-Cookie", setCookieValue c) := rfl
  by_cases h : f.TransferEncoding = []
  · simp [h, List.flatMap_map, hc]
  · simp [h, List.flatMap_map, hc]

theorem proto_text {p : Proto} (h : p = Proto.HTTP10 ∨ p = Proto.HTTP11 ∨ p = Proto.HTTP2) :
    ∃ v, Proto.toBytes p = v ++ [32] ∧ v.take 5 = b!"HTTP/" ∧ 32 ∉ v ∧ 13 ∉ v := by
  rcases h with rfl | rfl | rfl
  · exact ⟨b!"HTTP/1.0", by decide⟩
  · exact ⟨b!"HTTP/1.1", by decide⟩
  · exact ⟨b!"HTTP/2", by decide⟩

theorem reason_clean (f : Fields) : 13 ∉ reasonFor f := by
  have key : ∀ kv ∈ Status.textTable, 13 ∉ kv.2 := by decide +kernel
  unfold reasonFor
  split
  · decide
  · unfold Status.Text
    cases h : Status.textTable.lookup f.Code with
    | none => simp only; decide
    | some t => exact key _ (lookup_mem h)

theorem expectedFields_ok (F : Fold) {defs : List (Bytes × Bytes)} (hd : DefaultsOK F defs) (earlier : List Pair)
    {f : Fields} (hf : ResponseClean f) : ∀ kv ∈ expectedFields F defs earlier f, NameOK kv.1 ∧ NoBreak kv.2 := by
  intro kv hkv
  have lit : ∀ k : Bytes, (13 ∉ k ∧ 10 ∉ k) ∧ 58 ∉ k → NameOK k := fun k h => h
  unfold expectedFields at hkv
  simp only [List.mem_append, List.mem_map, List.mem_filter, List.mem_cons, List.mem_nil_iff, or_false] at hkv
  rcases hkv with ((((⟨h, hm, rfl⟩ | ⟨hm, _⟩) | rfl) | hm) | ⟨c, hm, rfl⟩) | rfl
  · exact hf.headers h hm
  · exact hd.clean kv hm
  · exact ⟨lit _ (by simp), hf.contentType⟩
  · split at hm
    · simp at hm
    · simp at hm; subst hm; exact ⟨lit _ (by simp), hf.transferEncoding⟩
  · exact ⟨lit _ (by simp), hf.cookies c hm⟩
  · refine ⟨lit _ (by simp), ?_⟩
    have := decBytes_digits f.Body.length
    exact ⟨fun h => by have := (this 13 h).1; simp at this, fun h => by have := (this 10 h).1; simp at this⟩

/-- Reading back a response without attachment. -/
theorem read_plain (F : Fold) {defs : List (Bytes × Bytes)} (hd : DefaultsOK F defs) (earlier : List Pair)
    {f : Fields} (hf : ResponseClean f) {p : Proto} (hp : p = Proto.HTTP10 ∨ p = Proto.HTTP11 ∨ p = Proto.HTTP2)
    (body : Bytes) :
    readMsg (Proto.toBytes p ++ plainHead F (defaultsAfter F defs earlier) f ++ body) =
      some { version := (Proto.toBytes p).dropLast, code := f.Code, reason := reasonFor f,
             fields := (expectedFields F defs earlier f).map (fun kv => (kv.1, stripOWS kv.2)), rest := body } := by
  obtain ⟨v, h1, h2, h3, h4⟩ := proto_text hp
  have := readMsg_render (rest := body) (code := f.Code) h2 h3 h4 (reason_clean f) (expectedFields_ok F hd earlier hf)
  rw [plainHead_after F hd.distinct, h1]
  simp only [List.dropLast_concat]
  rw [← this]
  congr 1
  simp [statusText]

end Indigo.Serializer
