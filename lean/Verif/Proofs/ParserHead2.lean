/-
The parser on whole heads, in terms of the grammar and of `Carries`.
-/
import Verif.Proofs.ParserHead
import Verif.Proofs.Uri

namespace Indigo.Parser
open Indigo.Spec

/-! ### Encoding tokens -/

theorem splitComma_none {v : Bytes} (h : cut COMMA v = none) : splitComma v = [v] := by
  induction v with
  | nil => rfl
  | cons c cs ih =>
    have h1 := cut_none.1 h
    simp at h1
    have := ih (cut_none.2 h1.2)
    have hc : ¬ c = 44 := fun e => h1.1 e.symm
    simp [splitComma, this, hc]

theorem splitComma_some {v a b : Bytes} (h : cut COMMA v = some (a, b)) : splitComma v = a :: splitComma b := by
  obtain ⟨rfl, h1⟩ := cut_some h
  clear h
  induction a with
  | nil => simp [splitComma, COMMA]
  | cons c cs ih =>
    simp at h1
    have hc : ¬ c = 44 := fun e => h1.1 e.symm
    simp [splitComma, ih h1.2, hc]

theorem parseEncodingLoop_eq (F : Fold) (max : Nat) (fuel : Nat) : ∀ (buff : List Bytes) (v : Bytes),
    v.length ≤ fuel → buff.length ≤ max →
    parseEncodingLoop F fuel buff v max (buff.any (fun t => F.eq t b!"chunked")) =
      if (buff ++ listElems v).length ≤ max then
        (buff ++ listElems v, (buff ++ listElems v).any (fun t => F.eq t b!"chunked"))
      else ([], false) := by
  have hnil : listElems [] = [] := by decide
  induction fuel with
  | zero =>
    intro buff v hv hb
    have : v = [] := by cases v <;> simp at hv ⊢
    subst this
    simp [parseEncodingLoop, hnil, hb]
  | succ n ih =>
    intro buff v hv hb
    rw [parseEncodingLoop]
    by_cases hv0 : v.length = 0
    · have : v = [] := by cases v <;> simp at hv0 ⊢
      subst this
      simp [hnil, hb]
    rw [if_neg hv0]
    have main : ∀ t v', v'.length ≤ n →
        listElems v = (if trimSpace t = [] then [] else [trimSpace t]) ++ listElems v' →
        (if (trimSpace t).length = 0 then
          parseEncodingLoop F n buff v' max (buff.any (fun t => F.eq t b!"chunked"))
        else if buff.length + 1 > max then ([], false)
        else parseEncodingLoop F n (buff ++ [trimSpace t]) v' max
          (if F.eq (trimSpace t) b!"chunked" then true else buff.any (fun t => F.eq t b!"chunked"))) =
        if (buff ++ listElems v).length ≤ max then
          (buff ++ listElems v, (buff ++ listElems v).any (fun t => F.eq t b!"chunked"))
        else ([], false) := by
      intro t v' hv' hl
      by_cases ht : trimSpace t = []
      · rw [if_pos (by simp [ht]), ih _ _ hv' hb, hl]; simp [ht]
      · rw [if_neg (by simpa using ht), hl]
        simp only [ht, if_false]
        split
        · rename_i hm
          rw [if_neg (by simp; omega)]
        · rename_i hm
          have := ih (buff ++ [trimSpace t]) v' hv' (by simp; omega)
          have hany : (buff ++ [trimSpace t]).any (fun t => F.eq t b!"chunked") =
              (if F.eq (trimSpace t) b!"chunked" then true else buff.any (fun t => F.eq t b!"chunked")) := by
            rw [List.any_append]
            cases hf : F.eq (trimSpace t) b!"chunked" <;> simp [hf]
          rw [hany] at this
          rw [this]
          simp [List.append_assoc]
    cases hc : cut COMMA v with
    | none =>
      refine main v [] (by simp) ?_
      simp only [listElems, splitComma_none hc]
      by_cases ht : trimSpace v = []
      · simp [ht]; decide
      · simp [ht]; decide
    | some ab =>
      obtain ⟨a, b⟩ := ab
      have := cut_length hc
      refine main a b (by omega) ?_
      simp only [listElems, splitComma_some hc]
      by_cases ht : trimSpace a = []
      · simp [ht]
      · simp [ht]

theorem parseEncodingString_eq (F : Fold) (max : Nat) (v : Bytes) :
    parseEncodingString F v max = (encTokens max v, (encTokens max v).any (fun t => F.eq t b!"chunked")) := by
  have := parseEncodingLoop_eq F max v.length [] v (Nat.le_refl _) (by simp)
  simp only [List.any_nil, List.nil_append] at this
  rw [parseEncodingString, this, encTokens]
  split <;> simp

/-! ### Content-Length digits -/

theorem wrap_step (M : Nat) (x : Int) (c : Byte) (hc : isDigit c = true) :
    Int.bmod (Int.bmod x M * 10 + ((c - 48).toNat : Nat)) M = Int.bmod (10 * x + ((c.toNat - 48 : Nat) : Int)) M := by
  have h1 : (c - 48).toNat = c.toNat - 48 := by
    rw [UInt8.toNat_sub_of_le]
    · rfl
    · simp [isDigit] at hc; exact hc.1
  rw [h1, Int.mul_comm 10 x, Int.add_bmod, Int.bmod_mul_bmod, ← Int.add_bmod]

theorem digits_bmod (M : Nat) (ds : Bytes) : (∀ c ∈ ds, isDigit c = true) → ∀ x : Nat,
    ds.foldl (fun n c => Int.bmod (n * 10 + ((c - 48).toNat : Nat)) M) (Int.bmod x M) =
      Int.bmod ((ds.foldl (fun n c => 10 * n + (c.toNat - 48)) x : Nat) : Int) M := by
  induction ds with
  | nil => intro _ x; rfl
  | cons c cs ih =>
    intro h x
    simp only [List.foldl_cons]
    rw [wrap_step M x c (h c (by simp)), ← ih (fun c hc => h c (by simp [hc]))]
    congr 1

/-- Appending digits to a number. -/
def decimalFrom (x : Nat) (ds : Bytes) : Nat := ds.foldl (fun n c => 10 * n + (c.toNat - 48)) x

theorem addDigits_bmod (x : Nat) (v : Bytes) :
    addDigits (Int.bmod x (2 ^ 64)) v = Int.bmod (decimalFrom x (v.filter isDigit)) (2 ^ 64) := by
  exact digits_bmod (2 ^ 64) _ (fun c hc => by simp at hc; exact hc.2) x

/-! ### Effect of a header line on the request -/

theorem storeHeader_named (F : Fold) (p : PState) (k v : Bytes) :
    let q := (storeHeader F p k v).req
    q.Method = p.req.Method ∧ q.Path = p.req.Path ∧ q.Query = p.req.Query ∧ q.Proto = p.req.Proto ∧
    q.ContentLength = p.req.ContentLength ∧
    q.Headers.pairs = p.req.Headers.pairs ++ [⟨k, v⟩] ∧
    q.Connection = (if named b!"connection" k then v else p.req.Connection) ∧
    q.ContentType = (if named b!"content-type" k then v else p.req.ContentType) ∧
    q.Upgrade = (if named b!"upgrade" k then Proto.chooseUpgrade v else p.req.Upgrade) ∧
    q.Encoding.HasTrailer = (if named b!"trailer" k then true else p.req.Encoding.HasTrailer) ∧
    q.Encoding.Content = (if named b!"content-encoding" k then encTokens p.cfg.maxEncodingTokens v
      else p.req.Encoding.Content) ∧
    q.Encoding.Transfer = (if named b!"transfer-encoding" k then encTokens p.cfg.maxEncodingTokens v
      else p.req.Encoding.Transfer) ∧
    q.Encoding.Chunked = (if named b!"transfer-encoding" k then
      (encTokens p.cfg.maxEncodingTokens v).any (fun t => F.eq t b!"chunked") else p.req.Encoding.Chunked) := by
  simp only [storeHeader, isUpgradeKey_eq, isTrailerKey_eq, isConnectionKey_eq, isContentTypeKey_eq,
    isContentEncodingKey_eq, isTransferEncodingKey_eq, parseEncodingString_eq, named]
  by_cases h1 : k.map or20 = b!"upgrade"
  · simp [Storage.add, h1]
  by_cases h2 : k.map or20 = b!"trailer"
  · simp [Storage.add, h2]
  by_cases h3 : k.map or20 = b!"connection"
  · simp [Storage.add, h3]
  by_cases h4 : k.map or20 = b!"content-type"
  · simp [Storage.add, h4]
  by_cases h5 : k.map or20 = b!"content-encoding"
  · simp [Storage.add, h5]
  by_cases h6 : k.map or20 = b!"transfer-encoding"
  · simp [Storage.add, h6]
  simp [Storage.add, h1, h2, h3, h4, h5, h6]

/-- Last value of the fields with a name, as the parser recognises names. -/
def lastOf (n : Bytes) (fs : List Field) : Option Bytes :=
  ((fs.filter (fun f => named n f.name)).getLast?).map Field.value

theorem lastOf_cons (n : Bytes) (f : Field) (fs : List Field) :
    lastOf n (f :: fs) = match lastOf n fs with
      | some v => some v
      | none => if named n f.name then some f.value else none := by
  unfold lastOf
  cases hn : named n f.name with
  | false =>
    simp only [List.filter_cons, hn, Bool.false_eq_true, if_false]
    cases (List.filter (fun f => named n f.name) fs).getLast? <;> rfl
  | true =>
    simp only [List.filter_cons, hn, if_true, List.getLast?_cons]
    cases (List.filter (fun f => named n f.name) fs).getLast? <;> rfl

def digitsOf (fs : List Field) : Bytes :=
  (fs.filter (fun f => isContentLengthKey f.name)).flatMap (fun f => f.value.filter isDigit)

theorem named_cl_others {k : Bytes} (h : isContentLengthKey k = true) :
    named b!"connection" k = false ∧ named b!"content-type" k = false ∧ named b!"upgrade" k = false ∧
    named b!"trailer" k = false ∧ named b!"content-encoding" k = false ∧
    named b!"transfer-encoding" k = false := by
  rw [isContentLengthKey_eq] at h
  unfold named at *
  generalize k.map or20 = K at *
  simp at h; subst h; decide

/-- Effect of the header lines on the request. -/
structure CarriesFields (F : Fold) (fs : List Field) (p p' : PState) : Prop where
  method : p'.req.Method = p.req.Method
  path : p'.req.Path = p.req.Path
  query : p'.req.Query = p.req.Query
  proto : p'.req.Proto = p.req.Proto
  cfg : p'.cfg = p.cfg
  headers : p'.req.Headers.pairs = p.req.Headers.pairs ++
    (fs.filter (fun f => !isContentLengthKey f.name)).map (fun f => ⟨f.name, f.value⟩)
  connection : p'.req.Connection = (lastOf b!"connection" fs).getD p.req.Connection
  contentType : p'.req.ContentType = (lastOf b!"content-type" fs).getD p.req.ContentType
  upgrade : p'.req.Upgrade = ((lastOf b!"upgrade" fs).map Proto.chooseUpgrade).getD p.req.Upgrade
  trailer : p'.req.Encoding.HasTrailer = ((lastOf b!"trailer" fs).isSome || p.req.Encoding.HasTrailer)
  content : p'.req.Encoding.Content =
    ((lastOf b!"content-encoding" fs).map (encTokens p.cfg.maxEncodingTokens)).getD p.req.Encoding.Content
  transfer : p'.req.Encoding.Transfer =
    ((lastOf b!"transfer-encoding" fs).map (encTokens p.cfg.maxEncodingTokens)).getD p.req.Encoding.Transfer
  chunked : p.req.Encoding.Chunked = p.req.Encoding.Transfer.any (fun t => F.eq t b!"chunked") →
    p'.req.Encoding.Chunked = p'.req.Encoding.Transfer.any (fun t => F.eq t b!"chunked")
  length : ∀ n : Nat, p.contentLength = Int.bmod n (2 ^ 64) →
    p'.contentLength = Int.bmod (decimalFrom n (digitsOf fs)) (2 ^ 64)
  reqLength : p.req.ContentLength = p.contentLength → p'.req.ContentLength = p'.contentLength

theorem carries_one (F : Fold) (p : PState) (f : Field) : CarriesFields F [f] p (afterField F p f) := by
  unfold afterField afterValue
  cases hl : isContentLengthKey f.name with
  | true =>
    obtain ⟨h1, h2, h3, h4, h5, h6⟩ := named_cl_others hl
    simp only [if_true]
    constructor <;> try (first | rfl | simp [hl, lastOf, h1, h2, h3, h4, h5, h6, afterKey]; done)
    · intro n hn
      show addDigits p.contentLength f.value = _
      rw [hn, addDigits_bmod]
      simp [digitsOf, hl]
  | false =>
    simp only [Bool.false_eq_true, if_false]
    obtain ⟨a1, a2, a3, a4, a5, a6, a7, a8, a9, a10, a11, a12, a13⟩ := storeHeader_named F
      { afterKey p f.name with valBuf := { (afterKey p f.name).valBuf with
          mem := (afterKey p f.name).valBuf.mem ++ rawValue f,
          start := (afterKey p f.name).valBuf.mem.length + (rawValue f).length } } f.name f.value
    obtain ⟨b1, b2, b3, b4, b5, b6⟩ := storeHeader_state F
      { afterKey p f.name with valBuf := { (afterKey p f.name).valBuf with
          mem := (afterKey p f.name).valBuf.mem ++ rawValue f,
          start := (afterKey p f.name).valBuf.mem.length + (rawValue f).length } } f.name f.value
    constructor
    · rw [a1]; rfl
    · rw [a2]; rfl
    · rw [a3]; rfl
    · rw [a4]; rfl
    · rw [b4]; rfl
    · rw [a6]; simp [hl, afterKey]
    · rw [a7]; simp only [lastOf, List.filter_cons, List.filter_nil, afterKey]; split <;> rfl
    · rw [a8]; simp only [lastOf, List.filter_cons, List.filter_nil, afterKey]; split <;> rfl
    · rw [a9]; simp only [lastOf, List.filter_cons, List.filter_nil, afterKey]; split <;> rfl
    · rw [a10]; simp only [lastOf, List.filter_cons, List.filter_nil, afterKey]; split <;> rfl
    · rw [a11]; simp only [lastOf, List.filter_cons, List.filter_nil, afterKey]; split <;> rfl
    · rw [a12]; simp only [lastOf, List.filter_cons, List.filter_nil, afterKey]; split <;> rfl
    · intro h; rw [a12, a13]; simp only [afterKey]; split
      · rfl
      · exact h
    · intro n hn; rw [b5]; simp [digitsOf, hl, decimalFrom, afterKey, hn]
    · intro h; rw [a5, b5]; exact h

theorem carries_fields (F : Fold) (fs : List Field) : ∀ p, CarriesFields F fs p (fs.foldl (afterField F) p) := by
  induction fs with
  | nil =>
    intro p
    constructor <;> simp [lastOf, digitsOf, decimalFrom]
  | cons f fs ih =>
    intro p
    have h1 := carries_one F p f
    have h2 := ih (afterField F p f)
    have hsplit : ∀ (n : Bytes) {α : Type} (g : Bytes → α) (d : α),
        ((lastOf n (f :: fs)).map g).getD d = ((lastOf n fs).map g).getD (((lastOf n [f]).map g).getD d) := by
      intro n α g d
      rw [lastOf_cons, lastOf_cons]
      cases lastOf n fs with
      | some v => rfl
      | none =>
        simp only [lastOf, List.filter_nil, List.getLast?_nil, Option.map_none]
        split <;> rfl
    have hsplit' : ∀ (n : Bytes) (d : Bytes),
        (lastOf n (f :: fs)).getD d = (lastOf n fs).getD ((lastOf n [f]).getD d) := by
      intro n d; simpa using hsplit n id d
    simp only [List.foldl_cons]
    constructor
    · rw [h2.method, h1.method]
    · rw [h2.path, h1.path]
    · rw [h2.query, h1.query]
    · rw [h2.proto, h1.proto]
    · rw [h2.cfg, h1.cfg]
    · rw [h2.headers, h1.headers]
      cases hl : isContentLengthKey f.name <;> simp [hl]
    · rw [h2.connection, h1.connection, hsplit']
    · rw [h2.contentType, h1.contentType, hsplit']
    · rw [h2.upgrade, h1.upgrade, hsplit]
    · rw [h2.trailer, h1.trailer, lastOf_cons, lastOf_cons]
      cases lastOf b!"trailer" fs with
      | some v => rfl
      | none =>
        simp only [lastOf, List.filter_nil, List.getLast?_nil, Option.map_none]
        split <;> rfl
    · rw [h2.content, h1.content, h1.cfg, hsplit]
    · rw [h2.transfer, h1.transfer, h1.cfg, hsplit]
    · exact fun h => h2.chunked (h1.chunked h)
    · intro n hn
      rw [h2.length _ (h1.length n hn)]
      congr 2
      simp only [digitsOf, decimalFrom, List.filter_cons, List.filter_nil]
      cases isContentLengthKey f.name <;> simp [List.foldl_append]
    · exact fun h => h2.reqLength (h1.reqLength h)

/-! ### Limits -/

structure FitsExpl (p : PState) (fs : List Field) : Prop where
  keys : p.keyBuf.mem.length + (fs.map (fun f => f.name.length)).sum ≤ p.keyBuf.max
  number : p.headersNumber + fs.length ≤ p.cfg.maxNumber
  values : p.valBuf.mem.length +
    ((fs.filter (fun f => !isContentLengthKey f.name)).map (fun f => (rawValue f).length)).sum ≤ p.valBuf.max
  value : ∀ f ∈ fs, isContentLengthKey f.name = false → (rawValue f).length ≤ p.cfg.maxValueLength ∧
    (f.crlf = false → f.value ≠ [])

theorem afterField_bufs (F : Fold) (p : PState) (f : Field) :
    (afterField F p f).keyBuf.mem = p.keyBuf.mem ++ f.name ∧ (afterField F p f).keyBuf.max = p.keyBuf.max ∧
    (afterField F p f).headersNumber = p.headersNumber + 1 ∧ (afterField F p f).cfg = p.cfg ∧
    (afterField F p f).valBuf.max = p.valBuf.max ∧
    (afterField F p f).valBuf.mem = p.valBuf.mem ++ (if isContentLengthKey f.name then [] else rawValue f) ∧
    (afterField F p f).startLine = p.startLine := by
  unfold afterField afterValue
  cases hl : isContentLengthKey f.name with
  | true => simp [afterKey]
  | false =>
    simp only [Bool.false_eq_true, if_false]
    obtain ⟨b1, b2, b3, b4, b5, b6⟩ := storeHeader_state F
      { afterKey p f.name with valBuf := { (afterKey p f.name).valBuf with
          mem := (afterKey p f.name).valBuf.mem ++ rawValue f,
          start := (afterKey p f.name).valBuf.mem.length + (rawValue f).length } } f.name f.value
    rw [b1, b2, b3, b4, b6]
    simp [afterKey]

theorem fieldsFit_iff (F : Fold) (fs : List Field) : ∀ p : PState, p.keyBuf.mem.length ≤ p.keyBuf.max →
    p.headersNumber ≤ p.cfg.maxNumber → p.valBuf.mem.length ≤ p.valBuf.max →
    (FieldsFit F p fs ↔ FitsExpl p fs) := by
  induction fs with
  | nil =>
    intro p h1 h2 h3
    refine ⟨fun _ => ⟨by simpa using h1, by simpa using h2, by simpa using h3, by simp⟩, fun _ => trivial⟩
  | cons f fs ih =>
    intro p h1 h2 h3
    obtain ⟨b1, b2, b3, b4, b5, b6, _⟩ := afterField_bufs F p f
    simp only [FieldsFit]
    constructor
    · rintro ⟨hf, hr⟩
      have := (ih (afterField F p f) (by rw [b1, b2]; simpa using hf.key) (by rw [b3, b4]; exact hf.number)
        (by
          rw [b5, b6]
          cases hl : isContentLengthKey f.name with
          | true => simpa using h3
          | false => simpa using (hf.value hl).1)).1 hr
      obtain ⟨c1, c2, c3, c4⟩ := this
      rw [b1, b2] at c1
      rw [b3, b4] at c2
      rw [b5, b6] at c3
      rw [b4] at c4
      refine ⟨by simp at c1 ⊢; omega, by simp at c2 ⊢; omega, ?_, ?_⟩
      · cases hl : isContentLengthKey f.name <;> simp [hl] at c3 ⊢ <;> omega
      · intro g hg
        simp at hg
        rcases hg with rfl | hg
        · exact fun h => (hf.value h).2
        · exact c4 g hg
    · rintro ⟨c1, c2, c3, c4⟩
      have c5 := c4 f (by simp)
      have hf : FieldFits p f := by
        refine ⟨by simp at c1; omega, by simp at c2; omega, fun hl => ⟨?_, c5 hl⟩⟩
        simp [hl] at c3; omega
      refine ⟨hf, (ih _ (by rw [b1, b2]; simpa using hf.key) (by rw [b3, b4]; exact hf.number)
        (by
          rw [b5, b6]
          cases hl : isContentLengthKey f.name with
          | true => simpa using h3
          | false => simpa using (hf.value hl).1)).2 ⟨?_, ?_, ?_, ?_⟩⟩
      · rw [b1, b2]; simp at c1 ⊢; omega
      · rw [b3, b4]; simp at c2 ⊢; omega
      · rw [b5, b6]
        cases hl : isContentLengthKey f.name <;> simp [hl] at c3 ⊢ <;> omega
      · rw [b4]; exact fun g hg => c4 g (by simp [hg])

end Indigo.Parser
