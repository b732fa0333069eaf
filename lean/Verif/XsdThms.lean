import Verif.UcisXsd
import Verif.XmlThms3
/-!
# C40: written documents against the schema
-/

namespace Verif
namespace Xsd
open Xml Spec PyNum

/-! ## Runs of elements -/

theorem takeWhile_replicate_append {a : String} {n : Nat} {r : List String} (h : r.head? ≠ some a) :
    (List.replicate n a ++ r).takeWhile (fun t => t = a) = List.replicate n a := by
  induction n with
  | zero =>
    cases r with
    | nil => rfl
    | cons b t =>
      have : b ≠ a := fun e => h (by rw [e]; rfl)
      simp [this]
  | succ n ih => rw [List.replicate_succ, List.cons_append, List.takeWhile_cons_of_pos (by simp), ih]

/-- The number of occurrences is allowed. -/
def Occ.allows (o : Occ) (n : Nat) : Bool := decide (o.min ≤ n) && (match o.max with | none => true | some m => decide (n ≤ m))

theorem matchPart_run {o : Occ} {n : Nat} {r : List String} (h : r.head? ≠ some o.name) :
    matchPart [o] (List.replicate n o.name ++ r) = if o.allows n then some (List.replicate n o.type, r) else none := by
  unfold matchPart
  cases n with
  | zero =>
    rw [List.find?_cons_of_neg (by simpa using h)]
    have : o.allows 0 = decide (o.min = 0) := by
      unfold Occ.allows
      have : (match o.max with | none => true | some m => decide (0 ≤ m)) = true := by cases o.max <;> simp
      rw [this, Bool.and_true]
      simp
    rw [this]
    simp only [List.find?_nil, List.any_cons, List.any_nil, Bool.or_false, List.replicate_zero, List.nil_append]
  | succ n =>
    rw [List.find?_cons_of_pos (by simp [List.replicate_succ])]
    simp only [matchOcc]
    rw [takeWhile_replicate_append h, List.length_replicate, List.drop_left' (by simp)]
    rfl

/-- A sequence of element particles with distinct names against runs of elements. -/
theorem matchParts_runs : ∀ (os : List Occ) (ns : List Nat), ns.length = os.length → (os.map (·.name)).Nodup →
    matchParts (os.map (fun o => [o])) (List.zipWith (fun o n => List.replicate n o.name) os ns).flatten
      = if (List.zipWith Occ.allows os ns).all id then some (List.zipWith (fun o n => List.replicate n o.type) os ns).flatten else none := by
  intro os
  induction os with
  | nil => intro ns h _; cases ns <;> simp [matchParts] at *
  | cons o os ih =>
    intro ns hl hnd
    cases ns with
    | nil => cases hl
    | cons n ns =>
      rw [List.map_cons, List.nodup_cons] at hnd
      have hhead : (List.zipWith (fun o n => List.replicate n o.name) os ns).flatten.head? ≠ some o.name := by
        intro hh
        have := List.mem_of_head? hh
        rw [List.mem_flatten] at this
        obtain ⟨l, hl1, hl2⟩ := this
        rw [List.zipWith_eq_zipWith_take_min, ← List.map_uncurry_zip_eq_zipWith, List.mem_map] at hl1
        obtain ⟨⟨o', n'⟩, hz, rfl⟩ := hl1
        have h1 := List.mem_of_mem_take (List.of_mem_zip hz).1
        have h2 := List.eq_of_mem_replicate hl2
        exact hnd.1 (List.mem_map.2 ⟨o', h1, h2.symm⟩)
      simp only [List.map_cons, List.zipWith_cons_cons, List.flatten_cons, matchParts]
      rw [matchPart_run hhead]
      by_cases ha : o.allows n = true
      · rw [if_pos ha]
        simp only
        rw [ih ns (by simpa using hl) hnd.2]
        simp only [List.all_cons, id, ha, Bool.true_and]
        split <;> rfl
      · rw [if_neg ha]
        simp [ha]

theorem validL_append (S : Schema) : ∀ (l m : List Elem) (a b : List String), a.length = l.length →
    validL S (l ++ m) (a ++ b) = (validL S l a && validL S m b) := by
  intro l
  induction l with
  | nil => intro m a b h; cases a with
    | nil => simp [validL]
    | cons _ _ => cases h
  | cons e t ih =>
    intro m a b h
    cases a with
    | nil => cases h
    | cons x a =>
      rw [List.cons_append, List.cons_append, validL, validL]
      rw [ih m a b (by simpa using h), Bool.and_assoc]

theorem validL_map (S : Schema) {α : Type} (f : α → Elem) (ty : String) (l : List α) {n : Nat} (hn : n = l.length) :
    validL S (l.map f) (List.replicate n ty) = l.all (fun x => validE S (f x) ty) := by
  subst hn
  induction l with
  | nil => rfl
  | cons a t ih => rw [List.map_cons, List.length_cons, List.replicate_succ, validL, ih, List.all_cons]

theorem validE_complex {S : Schema} {ty : String} {ct : CType} (hs : simpleOf ty = none) (h : Dict.get? S.types ty = some ct)
    (tag : String) (as : List (String × String)) (tx : Option String) (ch : List Elem) :
    validE S ⟨tag, as, tx, ch⟩ ty = (attrsOk ct as && textOk ct tx &&
      (match matchParts ct.parts (ch.map (·.tag)) with
         | none => false
         | some tys => validL S ch tys)) := by
  rw [validE]
  simp only [hs, h]
  rfl

/-! ## Simple values that are written -/

theorem xmlSpace_digit {c : Char} (h : c.isDigit = true) : xmlSpace c = false := by
  unfold xmlSpace
  simp only [Bool.or_eq_false_iff, beq_eq_false_iff_ne, ne_eq]
  refine ⟨⟨⟨?_, ?_⟩, ?_⟩, ?_⟩ <;> rintro rfl <;> exact absurd h (by decide)

theorem trim_eq_self {l : List Char} (h1 : ∀ c, l.head? = some c → xmlSpace c = false) (h2 : ∀ c, l.getLast? = some c → xmlSpace c = false) :
    trim l = l := by
  have hd : ∀ {l : List Char}, (∀ c, l.head? = some c → xmlSpace c = false) → l.dropWhile xmlSpace = l := by
    intro l h
    cases l with
    | nil => rfl
    | cons a t => rw [List.dropWhile_cons, h a rfl]; simp
  unfold trim
  rw [hd h1, hd (by rw [List.head?_reverse]; exact h2), List.reverse_reverse]

theorem digits_natL (n : Nat) : digits (natL n) = true := by
  unfold digits
  simp only [Bool.and_eq_true, Bool.not_eq_true', List.isEmpty_eq_false_iff, ne_eq, List.all_eq_true]
  exact ⟨natL_ne_nil n, fun c hc => natL_digit hc⟩

theorem integerVal_strInt (z : Int) : integerVal (strInt z).toList = some z := by
  unfold strInt integerVal
  rw [String.toList_ofList]
  have htrim : trim (intL z) = intL z := by
    apply trim_eq_self
    · intro c hc
      cases z with
      | ofNat n => exact xmlSpace_digit (natL_digit (List.mem_of_head? hc))
      | negSucc n => simp [intL] at hc; subst hc; decide
    · intro c hc
      cases z with
      | ofNat n => exact xmlSpace_digit (natL_digit (List.mem_of_getLast? hc))
      | negSucc n =>
        have := List.mem_of_getLast? hc
        rcases List.mem_cons.1 this with rfl | h
        · decide
        · exact xmlSpace_digit (natL_digit h)
  rw [htrim]
  cases z with
  | ofNat n =>
    simp only [intL]
    cases hn : natL n with
    | nil => exact absurd hn (natL_ne_nil n)
    | cons c t =>
      have hd : c.isDigit = true := natL_digit (n := n) (by rw [hn]; simp)
      have h1 : c ≠ '-' := by rintro rfl; exact absurd hd (by decide)
      have h2 : c ≠ '+' := by rintro rfl; exact absurd hd (by decide)
      split
      · rename_i h; exact absurd (List.cons.inj h).1 h1
      · rename_i h; exact absurd (List.cons.inj h).1 h2
      · rw [← hn, if_pos (digits_natL n)]
        exact congrArg (fun x : Nat => some (x : Int)) Nat.ofDigitChars_ten_toDigits
  | negSucc n =>
    simp only [intL]
    rw [if_pos (digits_natL (n + 1))]
    have : Nat.ofDigitChars 10 (natL (n + 1)) 0 = n + 1 := Nat.ofDigitChars_ten_toDigits
    rw [this]
    rfl

theorem nonNeg_strInt (z : Int) : Simple.nonNeg.valid (strInt z) = decide (0 ≤ z) := by
  simp only [Simple.valid, integerVal_strInt]
theorem pos_strInt (z : Int) : Simple.pos.valid (strInt z) = decide (0 < z) := by
  simp only [Simple.valid, integerVal_strInt]

theorem dd_padL {n : Nat} (h : n < 100) (r : List Char) : dd (padL 2 n ++ r) = [(n, r)] := by
  have hlen : (padL 2 n).length = 2 := padL_length (by decide) (by omega)
  have hdig : ∀ c ∈ padL 2 n, c.isDigit = true := fun c hc => padL_digit hc
  have hval := ofDigitChars_padL 2 n
  match hp : padL 2 n with
  | [] => rw [hp] at hlen; cases hlen
  | [_] => rw [hp] at hlen; cases hlen
  | [a, b] =>
    rw [hp] at hdig hval
    have ha := hdig a (by simp)
    have hb := hdig b (by simp)
    simp only [List.cons_append, List.nil_append, dd, DateTime.m2, ha, hb, Bool.and_self, if_true]
    congr 2
    rw [← hval]
    simp only [Nat.ofDigitChars_cons, Nat.ofDigitChars_nil, DateTime.digitVal]
    omega
  | _ :: _ :: _ :: _ => rw [hp] at hlen; simp at hlen

theorem runFmt_dd {n : Nat} (h : n < 100) (f : List DateTime.Tok) (r : List Char) :
    DateTime.runFmt (.field dd :: f) (padL 2 n ++ r) = (DateTime.runFmt f r).map (fun q => (n :: q.1, q.2)) := by
  rw [DateTime.runFmt, dd_padL h]; simp

theorem isDateTime_iso {d : DateTime.DT} (h : d.ok = true) : isDateTime (DateTime.iso d) = true := by
  obtain ⟨y, mo, da, ho, mi, se⟩ := d
  unfold DateTime.DT.ok at h
  simp only [decide_eq_true_eq] at h
  obtain ⟨h1, h2, h3, h4, h5, h6, h7, h8, h9⟩ := h
  have h31 := DateTime.daysIn_le y mo
  have hylen : (padL 4 y).length = 4 := padL_length (by decide) (by omega)
  have hydig : ∀ c ∈ padL 4 y, c.isDigit = true := fun c hc => padL_digit hc
  have hne : padL 4 y ≠ [] := by intro e; rw [e] at hylen; cases hylen
  have hslen : (padL 2 se).length = 2 := padL_length (by decide) (by omega)
  have htrim : trim (DateTime.iso ⟨y, mo, da, ho, mi, se⟩) = DateTime.iso ⟨y, mo, da, ho, mi, se⟩ := by
    apply trim_eq_self
    · intro c hc
      apply xmlSpace_digit
      apply hydig
      unfold DateTime.iso at hc
      simp only [List.append_assoc] at hc
      cases hp : padL 4 y with
      | nil => exact absurd hp hne
      | cons a t => rw [hp] at hc; simp at hc; rw [← hc]; simp
    · intro c hc
      apply xmlSpace_digit
      have hsne : padL 2 se ≠ [] := by intro e; rw [e] at hslen; cases hslen
      unfold DateTime.iso at hc
      rw [List.getLast?_append_of_ne_nil _ (by simp)] at hc
      rw [show ∀ l : List Char, ':' :: l = [':'] ++ l from fun _ => rfl, List.getLast?_append_of_ne_nil _ hsne] at hc
      exact padL_digit (List.mem_of_getLast? hc)
  have hu : unminus (DateTime.iso ⟨y, mo, da, ho, mi, se⟩) = DateTime.iso ⟨y, mo, da, ho, mi, se⟩ := by
    cases hp : padL 4 y with
    | nil => exact absurd hp hne
    | cons a t =>
      have ha : a ≠ '-' := by
        rintro rfl
        exact absurd (hydig '-' (by rw [hp]; simp)) (by decide)
      have : DateTime.iso ⟨y, mo, da, ho, mi, se⟩ = a :: (DateTime.iso ⟨y, mo, da, ho, mi, se⟩).tail := by
        unfold DateTime.iso; rw [hp]; rfl
      rw [this]
      unfold unminus
      split
      · rename_i he; exact absurd (List.cons.inj he).1 ha
      · rfl
  unfold isDateTime
  rw [htrim, hu]
  have hy : DateTime.iso ⟨y, mo, da, ho, mi, se⟩ = padL 4 y ++ '-' :: (padL 2 mo ++ '-' :: (padL 2 da ++ 'T' :: (padL 2 ho ++ ':' :: (padL 2 mi
      ++ ':' :: (padL 2 se ++ []))))) := by
    unfold DateTime.iso; simp
  rw [hy]
  have htw : (padL 4 y ++ '-' :: (padL 2 mo ++ '-' :: (padL 2 da ++ 'T' :: (padL 2 ho ++ ':' :: (padL 2 mi
      ++ ':' :: (padL 2 se ++ [])))))).takeWhile Char.isDigit = padL 4 y := by
    rw [List.takeWhile_append_of_pos hydig, List.takeWhile_cons_of_neg (by decide), List.append_nil]
  have hdw : (padL 4 y ++ '-' :: (padL 2 mo ++ '-' :: (padL 2 da ++ 'T' :: (padL 2 ho ++ ':' :: (padL 2 mi
      ++ ':' :: (padL 2 se ++ [])))))).dropWhile Char.isDigit = '-' :: (padL 2 mo ++ '-' :: (padL 2 da ++ 'T' :: (padL 2 ho ++ ':' :: (padL 2 mi
      ++ ':' :: (padL 2 se ++ []))))) := by
    rw [List.dropWhile_append_of_pos hydig, List.dropWhile_cons_of_neg (by decide)]
  simp only
  rw [htw, hdw, ofDigitChars_padL, hylen, DateTime.runFmt_lit]
  rw [runFmt_dd (by omega), DateTime.runFmt_lit, runFmt_dd (by omega), DateTime.runFmt_lit, runFmt_dd (by omega), DateTime.runFmt_lit,
    runFmt_dd (by omega), DateTime.runFmt_lit, runFmt_dd (by omega)]
  simp only [DateTime.runFmt, List.map_cons, List.map_nil]
  simp only [fractionOk, zoneOk]
  simp
  omega

/-! ## Attributes -/

/-- The attribute is declared and its value fits. -/
def attrOk (ct : CType) (p : String × String) : Bool :=
  match ct.attrs.find? (fun d => d.name = p.1) with
  | some d => d.type.valid p.2
  | none => false

theorem attrsOk_eq (ct : CType) (as : List (String × String)) :
    attrsOk ct as = (as.all (attrOk ct) && ct.attrs.all (fun d => !d.required || as.any (fun p => p.1 = d.name))) := rfl

theorem eOpt_all {P : String × String → Bool} {n : String} (h : ∀ v, P (n, v) = true) (o : Option String) : (eOpt n o).all P = true := by
  cases o with
  | none => rfl
  | some v => simp [eOpt, h]

theorem eNum_all (flt : FloatText) {P : String × String → Bool} {n : String} (x : Rat) :
    (eNum flt n x).all P = true ↔ (0 ≤ x → P (n, flt.show_ x) = true) := by
  unfold eNum
  split <;> simp_all

theorem eInt_all {P : String × String → Bool} {n : String} (h : ∀ z, 0 ≤ z → P (n, strInt z) = true) (z : Int) : (eInt n z).all P = true := by
  unfold eInt
  split <;> simp_all

/-! ## Elements -/

theorem tags_map {α : Type} {f : α → Elem} {t : String} (h : ∀ x, (f x).tag = t) (l : List α) :
    (l.map f).map (·.tag) = List.replicate l.length t := by
  induction l with
  | nil => rfl
  | cons a r ih => simp only [List.map_cons, List.length_cons, List.replicate_succ, h, ih]

theorem valid_leaf {ty : String} {ct : CType} (hs : simpleOf ty = none) (h : Dict.get? ucisXsd.types ty = some ct)
    (hp : matchParts ct.parts [] = some []) (tag : String) (as : List (String × String)) :
    validE ucisXsd ⟨tag, as, none, []⟩ ty = attrsOk ct as := by
  rw [validE_complex hs h]
  have : textOk ct none = true := by unfold textOk; cases ct.mixed <;> simp
  rw [this]
  simp [hp, validL]

theorem valid_contents (z : Int) : validE ucisXsd (eContents z) "BIN_CONTENTS" = decide (0 ≤ z) := by
  unfold eContents
  rw [valid_leaf (ct := tBinContents) (by decide) rfl rfl, attrsOk_eq]
  simp [tBinContents, attrOk, nonNeg_strInt]

theorem valid_bin (i : Item) (hk : IsKind i.kind) : validE ucisXsd (eBin i) "COVERPOINT_BIN" = decide (0 ≤ i.count) := by
  unfold eBin
  rw [validE_complex (ct := tCoverpointBin) (by decide) rfl]
  have h1 : attrsOk tCoverpointBin [("name", i.name), ("type", kindText i.kind), ("key", "0")] = true := by
    rw [attrsOk_eq]
    unfold kindText
    rcases hk with h | h | h <;> rw [h] <;> simp [tCoverpointBin, attrOk, Simple.valid, CT.CVGBIN, CT.IGNOREBIN, CT.ILLEGALBIN]
  have h2 : matchParts tCoverpointBin.parts (["range"]) = some ["RANGE_VALUE"] := by rfl
  have h3 : validE ucisXsd ⟨"range", [("from", "-1"), ("to", "-1")], none, [eContents i.count]⟩ "RANGE_VALUE" = decide (0 ≤ i.count) := by
    rw [validE_complex (ct := tRangeValue) (by decide) rfl]
    have h2 : matchParts tRangeValue.parts (["contents"]) = some ["BIN_CONTENTS"] := by rfl
    have h4 : attrsOk tRangeValue [("from", "-1"), ("to", "-1")] = true := by decide +kernel
    rw [h4, show [eContents i.count].map (·.tag) = ["contents"] from rfl, h2]
    simp [validL, valid_contents, textOk, tRangeValue]
  rw [h1, show ∀ e : Elem, [e].map (·.tag) = [e.tag] from fun _ => rfl, h2]
  simp [validL, h3, textOk, tCoverpointBin]

theorem valid_options {ty : String} {ct : CType} (hs : simpleOf ty = none) (h : Dict.get? ucisXsd.types ty = some ct)
    (hp : matchParts ct.parts [] = some []) (ha : ct.attrs.all (fun d => !d.required) = true) : validE ucisXsd optionsElem ty = true := by
  unfold optionsElem
  rw [valid_leaf hs h hp, attrsOk_eq]
  simpa using ha

theorem valid_sourceId {tag : String} : validE ucisXsd ⟨tag, [("file", "1"), ("line", "1"), ("inlineCount", "1")], none, []⟩ "STATEMENT_ID" = true := by
  rw [valid_leaf (ct := tStatementId) (by decide) rfl rfl]
  decide +kernel

theorem valid_cp (c : Scope) (hk : ∀ i ∈ covBins c, IsKind i.kind) :
    validE ucisXsd (eCp c) "COVERPOINT" = true ↔ covBins c ≠ [] ∧ ∀ i ∈ covBins c, 0 ≤ i.count := by
  unfold eCp
  rw [validE_complex (ct := tCoverpoint) (by decide) rfl]
  have h1 : attrsOk tCoverpoint [("name", c.name), ("key", "0")] = true := by
    rw [attrsOk_eq]; simp [tCoverpoint, attrOk, Simple.valid]
  have h2 : (optionsElem :: (covBins c).map eBin).map (·.tag) = (List.zipWith (fun (o : Occ) n => List.replicate n o.name)
      [⟨"options", "COVERPOINT_OPTIONS", 1, some 1⟩, ⟨"coverpointBin", "COVERPOINT_BIN", 1, none⟩, ⟨"userAttr", "USER_ATTR", 0, none⟩]
      [1, (covBins c).length, 0]).flatten := by
    rw [List.map_cons, tags_map (t := "coverpointBin") (fun _ => rfl)]; simp [optionsElem]
  have h3 : tCoverpoint.parts = List.map (fun o => [o])
      [⟨"options", "COVERPOINT_OPTIONS", 1, some 1⟩, ⟨"coverpointBin", "COVERPOINT_BIN", 1, none⟩, ⟨"userAttr", "USER_ATTR", 0, none⟩] := rfl
  rw [h1, h2, h3, matchParts_runs _ _ rfl (by decide)]
  have h4 : (List.zipWith Occ.allows [⟨"options", "COVERPOINT_OPTIONS", 1, some 1⟩, ⟨"coverpointBin", "COVERPOINT_BIN", 1, none⟩,
      ⟨"userAttr", "USER_ATTR", 0, none⟩] [1, (covBins c).length, 0]).all id = decide (covBins c ≠ []) := by
    cases covBins c <;> simp [Occ.allows]
  have h5 : validL ucisXsd (optionsElem :: (covBins c).map eBin) ("COVERPOINT_OPTIONS" :: List.replicate (covBins c).length "COVERPOINT_BIN")
      = (covBins c).all (fun i => decide (0 ≤ i.count)) := by
    rw [validL, validL_map _ _ _ _ rfl, valid_options (ct := tCoverpointOptions) (by decide) rfl rfl rfl, Bool.true_and]
    rw [Bool.eq_iff_iff, List.all_eq_true, List.all_eq_true]
    exact forall₂_congr (fun i hi => by rw [valid_bin i (hk i hi)])
  rw [h4]
  by_cases hne : covBins c = []
  · simp [hne]
  · rw [if_pos (by simpa using hne)]
    simp only [List.zipWith_cons_cons, List.zipWith_nil_right, List.flatten_cons, List.flatten_nil, List.replicate_one, List.replicate_zero,
      List.append_nil, List.cons_append, List.nil_append]
    rw [h5]
    simp [hne, textOk, tCoverpoint]

theorem valid_crossBin (i : Item) : validE ucisXsd (eCrossBin i) "CROSS_BIN" = decide (0 ≤ i.count) := by
  unfold eCrossBin
  rw [validE_complex (ct := tCrossBin) (by decide) rfl]
  have h1 : attrsOk tCrossBin [("name", i.name), ("key", "0"), ("type", "default")] = true := by
    rw [attrsOk_eq]; simp [tCrossBin, attrOk, Simple.valid]
  have h2 : matchParts tCrossBin.parts (["index", "contents"]) = some ["xsd:integer", "BIN_CONTENTS"] := by rfl
  have h3 : validE ucisXsd ⟨"index", [], some "-1", []⟩ "xsd:integer" = true := by rfl
  rw [h1, show [(⟨"index", [], some "-1", []⟩ : Elem), eContents i.count].map (·.tag) = ["index", "contents"] from rfl, h2]
  simp [validL, h3, valid_contents, textOk, tCrossBin]

theorem valid_expr (n : String) : validE ucisXsd (eExpr textOf n) "xsd:string" = true := by rfl

theorem valid_cross (c : Scope) : validE ucisXsd (eCross textOf c) "CROSS" = true ↔ ∀ i ∈ covBins c, 0 ≤ i.count := by
  unfold eCross
  rw [validE_complex (ct := tCross) (by decide) rfl]
  have h1 : attrsOk tCross [("name", c.name), ("key", "0")] = true := by
    rw [attrsOk_eq]; simp [tCross, attrOk, Simple.valid]
  have h2 : (optionsElem :: ((c.cps.getD []).map (eExpr textOf) ++ (covBins c).map eCrossBin)).map (·.tag) =
      (List.zipWith (fun (o : Occ) n => List.replicate n o.name)
      [⟨"options", "CROSS_OPTIONS", 1, some 1⟩, ⟨"crossExpr", "xsd:string", 0, none⟩, ⟨"crossBin", "CROSS_BIN", 0, none⟩,
        ⟨"userAttr", "USER_ATTR", 0, none⟩]
      [1, (c.cps.getD []).length, (covBins c).length, 0]).flatten := by
    rw [List.map_cons, List.map_append, tags_map (t := "crossExpr") (fun _ => rfl), tags_map (t := "crossBin") (fun _ => rfl)]
    simp [optionsElem]
  have h3 : tCross.parts = List.map (fun o => [o])
      [⟨"options", "CROSS_OPTIONS", 1, some 1⟩, ⟨"crossExpr", "xsd:string", 0, none⟩, ⟨"crossBin", "CROSS_BIN", 0, none⟩,
        ⟨"userAttr", "USER_ATTR", 0, none⟩] := rfl
  rw [h1, h2, h3, matchParts_runs _ _ rfl (by decide), if_pos (by simp [Occ.allows])]
  simp only [List.zipWith_cons_cons, List.zipWith_nil_right, List.flatten_cons, List.flatten_nil, List.replicate_one, List.replicate_zero,
      List.append_nil, List.cons_append, List.nil_append]
  rw [validL, validL_append _ _ _ _ _ (by simp), validL_map _ _ _ _ rfl, validL_map _ _ _ _ rfl,
    valid_options (ct := tCrossOptions) (by decide) rfl rfl rfl]
  simp [valid_expr, valid_crossBin, textOk, tCross]

theorem valid_cgId (n : String) : validE ucisXsd (eCgId n) "CG_ID" = true := by
  unfold eCgId
  rw [validE_complex (ct := tCgId) (by decide) rfl]
  have h1 : attrsOk tCgId [("cgName", n), ("moduleName", n)] = true := by
    rw [attrsOk_eq]; simp [tCgId, attrOk, Simple.valid]
  have h2 : matchParts tCgId.parts (["cginstSourceId", "cgSourceId"]) = some ["STATEMENT_ID", "STATEMENT_ID"] := by rfl
  rw [h1, show [sourceIdElem "cginstSourceId", sourceIdElem "cgSourceId"].map (·.tag) = ["cginstSourceId", "cgSourceId"] from rfl, h2]
  simp [validL, sourceIdElem, valid_sourceId, textOk, tCgId]

theorem valid_group (n : String) (g : Scope) (hk : ∀ c ∈ kids ST.COVERPOINT g, ∀ i ∈ covBins c, IsKind i.kind) :
    validE ucisXsd (eGroup textOf n g) "CGINSTANCE" = true ↔ kids ST.COVERPOINT g ≠ [] ∧
      (∀ c ∈ kids ST.COVERPOINT g, covBins c ≠ [] ∧ ∀ i ∈ covBins c, 0 ≤ i.count) ∧
      ∀ c ∈ kids ST.CROSS g, ∀ i ∈ covBins c, 0 ≤ i.count := by
  unfold eGroup
  rw [validE_complex (ct := tCginstance) (by decide) rfl]
  have h1 : attrsOk tCginstance [("name", g.name), ("key", "0")] = true := by
    rw [attrsOk_eq]; simp [tCginstance, attrOk, Simple.valid]
  have h2 : (optionsElem :: eCgId n :: ((kids ST.COVERPOINT g).map eCp ++ (kids ST.CROSS g).map (eCross textOf))).map (·.tag) =
      (List.zipWith (fun (o : Occ) n => List.replicate n o.name)
      [⟨"options", "CGINST_OPTIONS", 1, some 1⟩, ⟨"cgId", "CG_ID", 1, some 1⟩, ⟨"cgParms", "NAME_VALUE", 0, none⟩,
        ⟨"coverpoint", "COVERPOINT", 1, none⟩, ⟨"cross", "CROSS", 0, none⟩, ⟨"userAttr", "USER_ATTR", 0, none⟩]
      [1, 1, 0, (kids ST.COVERPOINT g).length, (kids ST.CROSS g).length, 0]).flatten := by
    rw [List.map_cons, List.map_cons, List.map_append, tags_map (t := "coverpoint") (fun _ => rfl), tags_map (t := "cross") (fun _ => rfl)]
    simp [optionsElem, eCgId]
  have h3 : tCginstance.parts = List.map (fun o => [o])
      [⟨"options", "CGINST_OPTIONS", 1, some 1⟩, ⟨"cgId", "CG_ID", 1, some 1⟩, ⟨"cgParms", "NAME_VALUE", 0, none⟩,
        ⟨"coverpoint", "COVERPOINT", 1, none⟩, ⟨"cross", "CROSS", 0, none⟩, ⟨"userAttr", "USER_ATTR", 0, none⟩] := rfl
  rw [h1, h2, h3, matchParts_runs _ _ rfl (by decide)]
  have h4 : (List.zipWith Occ.allows [⟨"options", "CGINST_OPTIONS", 1, some 1⟩, ⟨"cgId", "CG_ID", 1, some 1⟩, ⟨"cgParms", "NAME_VALUE", 0, none⟩,
        ⟨"coverpoint", "COVERPOINT", 1, none⟩, ⟨"cross", "CROSS", 0, none⟩, ⟨"userAttr", "USER_ATTR", 0, none⟩]
      [1, 1, 0, (kids ST.COVERPOINT g).length, (kids ST.CROSS g).length, 0]).all id = !(kids ST.COVERPOINT g).isEmpty := by
    cases kids ST.COVERPOINT g <;> simp [Occ.allows]
  rw [h4]
  by_cases hne : kids ST.COVERPOINT g = []
  · simp [hne]
  · rw [if_pos (by simpa using hne)]
    simp only [List.zipWith_cons_cons, List.zipWith_nil_right, List.flatten_cons, List.flatten_nil, List.replicate_one, List.replicate_zero,
      List.append_nil, List.cons_append, List.nil_append]
    rw [validL, validL, validL_append _ _ _ _ _ (by simp), validL_map _ _ _ _ rfl, validL_map _ _ _ _ rfl,
      valid_options (ct := tCginstOptions) (by decide) rfl rfl rfl, valid_cgId]
    simp only [Bool.and_eq_true, List.all_eq_true, hne, ne_eq, not_false_iff, true_and]
    have ht : textOk tCginstance none = true := by decide
    rw [ht]
    simp only [true_and]
    exact and_congr (forall₂_congr (fun c hc => valid_cp c (hk c hc))) (forall₂_congr (fun c _ => valid_cross c))

theorem valid_cg (g : Scope) : validE ucisXsd (eCg textOf g) "COVERGROUP_COVERAGE" = true ↔
    ∀ c ∈ writtenGroups g, validE ucisXsd (eGroup textOf g.name c) "CGINSTANCE" = true := by
  unfold eCg
  rw [validE_complex (ct := tCovergroupCoverage) (by decide) rfl]
  have h1 : attrsOk tCovergroupCoverage [] = true := by decide
  have h2 : ((writtenGroups g).map (eGroup textOf g.name)).map (·.tag) =
      (List.zipWith (fun (o : Occ) n => List.replicate n o.name)
      [⟨"cgInstance", "CGINSTANCE", 0, none⟩, ⟨"userAttr", "USER_ATTR", 0, none⟩]
      [(writtenGroups g).length, 0]).flatten := by
    rw [tags_map (t := "cgInstance") (fun _ => rfl)]
    simp
  have h3 : tCovergroupCoverage.parts = List.map (fun o => [o])
      [⟨"cgInstance", "CGINSTANCE", 0, none⟩, ⟨"userAttr", "USER_ATTR", 0, none⟩] := rfl
  rw [h1, h2, h3, matchParts_runs _ _ rfl (by decide), if_pos (by simp [Occ.allows])]
  simp only [List.zipWith_cons_cons, List.zipWith_nil_right, List.flatten_cons, List.flatten_nil, List.replicate_zero, List.append_nil]
  rw [validL_map _ _ _ _ rfl]
  simp [textOk, tCovergroupCoverage]

theorem valid_inst (i : Scope) : validE ucisXsd (eInst textOf i) "INSTANCE_COVERAGE" = true ↔
    ∀ g ∈ kids ST.COVERGROUP i, validE ucisXsd (eCg textOf g) "COVERGROUP_COVERAGE" = true := by
  unfold eInst
  rw [validE_complex (ct := tInstanceCoverage) (by decide) rfl]
  have h1 : attrsOk tInstanceCoverage [("name", i.name), ("key", "0")] = true := by
    rw [attrsOk_eq]; simp [tInstanceCoverage, attrOk, Simple.valid]
  have h2 : (idElem :: (kids ST.COVERGROUP i).map (eCg textOf)).map (·.tag) =
      (List.zipWith (fun (o : Occ) n => List.replicate n o.name)
      [⟨"designParameter", "NAME_VALUE", 0, none⟩, ⟨"id", "STATEMENT_ID", 1, some 1⟩, ⟨"toggleCoverage", "TOGGLE_COVERAGE", 0, none⟩,
      ⟨"blockCoverage", "BLOCK_COVERAGE", 0, none⟩, ⟨"conditionCoverage", "CONDITION_COVERAGE", 0, none⟩,
      ⟨"branchCoverage", "BRANCH_COVERAGE", 0, none⟩, ⟨"fsmCoverage", "FSM_COVERAGE", 0, none⟩,
      ⟨"assertionCoverage", "ASSERTION_COVERAGE", 0, none⟩, ⟨"covergroupCoverage", "COVERGROUP_COVERAGE", 0, none⟩,
      ⟨"userAttr", "USER_ATTR", 0, none⟩]
      [0, 1, 0, 0, 0, 0, 0, 0, (kids ST.COVERGROUP i).length, 0]).flatten := by
    rw [List.map_cons, tags_map (t := "covergroupCoverage") (fun _ => rfl)]
    simp [idElem]
  have h3 : tInstanceCoverage.parts = List.map (fun o => [o])
      [⟨"designParameter", "NAME_VALUE", 0, none⟩, ⟨"id", "STATEMENT_ID", 1, some 1⟩, ⟨"toggleCoverage", "TOGGLE_COVERAGE", 0, none⟩,
      ⟨"blockCoverage", "BLOCK_COVERAGE", 0, none⟩, ⟨"conditionCoverage", "CONDITION_COVERAGE", 0, none⟩,
      ⟨"branchCoverage", "BRANCH_COVERAGE", 0, none⟩, ⟨"fsmCoverage", "FSM_COVERAGE", 0, none⟩,
      ⟨"assertionCoverage", "ASSERTION_COVERAGE", 0, none⟩, ⟨"covergroupCoverage", "COVERGROUP_COVERAGE", 0, none⟩,
      ⟨"userAttr", "USER_ATTR", 0, none⟩] := rfl
  rw [h1, h2, h3, matchParts_runs _ _ rfl (by decide), if_pos (by simp [Occ.allows])]
  simp only [List.zipWith_cons_cons, List.zipWith_nil_right, List.flatten_cons, List.flatten_nil, List.replicate_zero, List.replicate_one,
    List.append_nil, List.nil_append, List.cons_append]
  rw [validL, validL_map _ _ _ _ rfl]
  simp [textOk, tInstanceCoverage, idElem, valid_sourceId]

/-! ## Documents -/

theorem valid_file {f : String × Nat} (h : 0 < f.2) : validE ucisXsd (eFile f) "SOURCE_FILE" = true := by
  unfold eFile
  rw [valid_leaf (ct := tSourceFile) (by decide) rfl rfl, attrsOk_eq]
  simp [tSourceFile, attrOk, Simple.valid, integerVal_strInt, h]

theorem isDateTime_isoOf {d : DateVal} (h : DateOk d) : isDateTime (isoOf d).toList = true := by
  obtain ⟨s, t, rfl, ht⟩ := h
  simp only [isoOf, ht, String.toList_ofList]
  apply isDateTime_iso
  unfold DateTime.strptime at ht
  split at ht
  · split at ht
    · rename_i hok; cases ht; exact hok
    · cases ht
  · cases ht

/-- The numbers of a history node are written as the schema wants them. -/
def _root_.Verif.Spec.TimesOk (flt : FloatText) (h : Hist) : Prop :=
  (0 ≤ h.simTime → isDouble (flt.show_ h.simTime).toList = true) ∧
  (0 ≤ h.cpuTime → isDouble (flt.show_ h.cpuTime).toList = true) ∧
  (0 ≤ h.cost → isDecimal (flt.show_ h.cost).toList = true)

theorem valid_hist (flt : FloatText) (k : Nat) (h : Hist) (hd : DateOk h.date) :
    validE ucisXsd (eHist flt k h) "HISTORY_NODE" = true ↔ TimesOk flt h := by
  unfold eHist
  rw [valid_leaf (ct := tHistoryNode) (by decide) rfl rfl, attrsOk_eq]
  have hreq : ∀ as : List (String × String), as.any (fun p => p.1 = "historyNodeId") = true → as.any (fun p => p.1 = "logicalName") = true →
      as.any (fun p => p.1 = "testStatus") = true → as.any (fun p => p.1 = "date") = true → as.any (fun p => p.1 = "toolCategory") = true →
      as.any (fun p => p.1 = "ucisVersion") = true → as.any (fun p => p.1 = "vendorId") = true → as.any (fun p => p.1 = "vendorTool") = true →
      as.any (fun p => p.1 = "vendorToolVersion") = true →
      tHistoryNode.attrs.all (fun d => !d.required || as.any (fun p => p.1 = d.name)) = true := by
    intro as h1 h2 h3 h4 h5 h6 h7 h8 h9
    simp only [tHistoryNode, List.all_cons, List.all_nil, h1, h2, h3, h4, h5, h6, h7, h8, h9, Bool.not_true, Bool.not_false, Bool.true_or,
      Bool.or_true, Bool.and_true]
  rw [hreq _ (by simp) (by simp) (by simp) (by simp) (by simp) (by simp) (by simp) (by simp) (by simp), Bool.and_true]
  have e : ∀ (n : String) (o : Option String), (∀ v, attrOk tHistoryNode (n, v) = true) → (eOpt n o).all (attrOk tHistoryNode) = true :=
    fun n o hh => eOpt_all hh o
  have hst : attrOk tHistoryNode ("testStatus", if h.status ≠ 0 then "true" else "false") = true := by
    split <;> rfl
  have hdt : attrOk tHistoryNode ("date", isoOf h.date) = true := isDateTime_isoOf hd
  have hid : attrOk tHistoryNode ("historyNodeId", strInt k) = true := by
    show Simple.nonNeg.valid _ = true
    rw [nonNeg_strInt]; simp
  have hsame : (eInt "sameTests" h.sameTests).all (attrOk tHistoryNode) = true := by
    apply eInt_all
    intro z hz
    show Simple.nonNeg.valid _ = true
    rw [nonNeg_strInt]; simpa using hz
  have str : ∀ v, attrOk tHistoryNode ("logicalName", v) = true ∧ attrOk tHistoryNode ("toolCategory", v) = true ∧
      attrOk tHistoryNode ("ucisVersion", v) = true ∧ attrOk tHistoryNode ("vendorId", v) = true ∧ attrOk tHistoryNode ("vendorTool", v) = true ∧
      attrOk tHistoryNode ("vendorToolVersion", v) = true := fun v => ⟨rfl, rfl, rfl, rfl, rfl, rfl⟩
  simp only [List.all_cons, List.all_append, hst, hdt, hid, hsame, (str _).1, (str _).2.1, (str _).2.2.1, (str _).2.2.2.1,
    (str _).2.2.2.2.1, (str _).2.2.2.2.2, e "physicalName" _ (fun _ => rfl), e "kind" _ (fun _ => rfl), e "timeunit" _ (fun _ => rfl),
    e "runCwd" _ (fun _ => rfl), e "seed" _ (fun _ => rfl), e "cmd" _ (fun _ => rfl), e "args" _ (fun _ => rfl),
    e "compulsory" _ (fun _ => rfl), e "userName" _ (fun _ => rfl), e "comment" _ (fun _ => rfl), Bool.and_true, Bool.true_and,
    Bool.and_eq_true, eNum_all]
  unfold TimesOk
  rw [and_assoc]
  rfl

theorem valid_dummy {now : String} (h : isDateTime now.toList = true) : validE ucisXsd (eDummy now) "HISTORY_NODE" = true := by
  unfold eDummy
  rw [valid_leaf (ct := tHistoryNode) (by decide) rfl rfl, attrsOk_eq]
  have hdt : attrOk tHistoryNode ("date", now) = true := h
  have h1 : ∀ v, v = "0" → attrOk tHistoryNode ("simtime", v) = true ∧ attrOk tHistoryNode ("cpuTime", v) = true ∧
      attrOk tHistoryNode ("historyNodeId", v) = true := by
    rintro _ rfl; decide +kernel
  simp only [List.all_cons, List.all_nil, hdt, (h1 _ rfl).1, (h1 _ rfl).2.1, (h1 _ rfl).2.2, Bool.and_true, Bool.true_and]
  rfl

theorem mem_set {α : Type} {d : Dict α} {k : String} {v : α} {p : String × α} (h : p ∈ Dict.set d k v) : p ∈ d ∨ p.2 = v := by
  induction d with
  | nil => simp [Dict.set] at h; exact .inr (by rw [h])
  | cons a t ih =>
    obtain ⟨x, y⟩ := a
    rw [Dict.set] at h
    split at h
    · rcases List.mem_cons.1 h with rfl | h
      · exact .inr rfl
      · exact .inl (by simp [h])
    · rcases List.mem_cons.1 h with rfl | h
      · exact .inl (by simp)
      · exact (ih h).imp (by simp_all) id

theorem set_ne_nil {α : Type} (d : Dict α) (k : String) (v : α) : Dict.set d k v ≠ [] := by
  cases d with
  | nil => simp [Dict.set]
  | cons a t => rw [Dict.set]; split <;> simp

/-- A usable table of file numbers. -/
def GoodTable (m : Dict Nat) : Prop := m ≠ [] ∧ ∀ p ∈ m, 0 < p.2

theorem goodTable_add {m : Dict Nat} (h : GoodTable m) (f : String) : GoodTable (addFile m f) := by
  unfold addFile
  split
  · exact h
  · refine ⟨set_ne_nil _ _ _, fun p hp => ?_⟩
    rcases mem_set hp with hp | hp
    · exact h.2 p hp
    · rw [hp]; simp

mutual
theorem goodTable_find : ∀ (s : Scope) (m : Dict Nat), GoodTable m → GoodTable (findFiles s m)
  | ⟨_, _, src, _, _, _, ch, _⟩, m, h => by
    rw [findFiles]
    apply goodTable_findL
    cases src.file with
    | none => exact h
    | some f => exact goodTable_add h f
termination_by structural s => s
theorem goodTable_findL : ∀ (l : List Scope) (m : Dict Nat), GoodTable m → GoodTable (findFilesL l m)
  | [], m, h => by rw [findFilesL]; exact h
  | s :: t, m, h => by
    rw [findFilesL]
    apply goodTable_findL
    split
    · exact goodTable_find s m h
    · exact h
termination_by structural l => l
end

theorem goodTable_fileTable (db : Scope) : GoodTable (fileTable db) := goodTable_findL _ _ ⟨by simp, by simp⟩

theorem tags_eHistory (env : Env) (l : List Hist) : (eHistory env l).map (·.tag) = List.replicate (eHistory env l).length "historyNodes" := by
  have : ∀ (k : Nat) (l : List Hist), (eHists env.flt k l).map (·.tag) = List.replicate (eHists env.flt k l).length "historyNodes" := by
    intro k l
    induction l generalizing k with
    | nil => rfl
    | cons a t ih => simp only [eHists, List.map_cons, List.length_cons, List.replicate_succ, ih]; rfl
  cases l with
  | nil => rfl
  | cons a t => exact this 0 (a :: t)

theorem eHistory_ne_nil (env : Env) (l : List Hist) : eHistory env l ≠ [] := by
  cases l <;> simp [eHistory, eHists]

theorem validL_replicate (S : Schema) (ty : String) (l : List Elem) :
    validL S l (List.replicate l.length ty) = l.all (fun x => validE S x ty) := by
  have := validL_map S id ty l rfl
  rwa [List.map_id] at this

theorem all_eHists (flt : FloatText) (l : List Hist) (hd : ∀ h ∈ l, DateOk h.date) (k : Nat) :
    (eHists flt k l).all (fun e => validE ucisXsd e "HISTORY_NODE") = true ↔ ∀ h ∈ l, TimesOk flt h := by
  induction l generalizing k with
  | nil => simp [eHists]
  | cons a t ih =>
    rw [List.forall_mem_cons] at hd ⊢
    rw [eHists, List.all_cons, Bool.and_eq_true, ih hd.2, valid_hist _ _ _ hd.1]

theorem all_eHistory (env : Env) (hn : isDateTime env.now.toList = true) (l : List Hist) (hd : ∀ h ∈ l, DateOk h.date) :
    (eHistory env l).all (fun e => validE ucisXsd e "HISTORY_NODE") = true ↔ ∀ h ∈ l, TimesOk env.flt h := by
  cases l with
  | nil => simp [eHistory, valid_dummy hn]
  | cons a t => exact all_eHists env.flt (a :: t) hd 0

theorem valid_doc (env : Env) (ht : isDateTime env.today.toList = true) (hn : isDateTime env.now.toList = true) (db : Database)
    (hd : ∀ h ∈ db.hist, DateOk h.date) :
    valid ucisXsd (eDoc textOf env db) = true ↔ kids ST.INSTANCE db.root ≠ [] ∧ (∀ h ∈ db.hist, TimesOk env.flt h) ∧
      ∀ i ∈ kids ST.INSTANCE db.root, validE ucisXsd (eInst textOf i) "INSTANCE_COVERAGE" = true := by
  unfold valid
  have hr : ((eDoc textOf env db).tag == ucisXsd.root) = true := by rfl
  rw [hr, Bool.true_and]
  show validE ucisXsd (eDoc textOf env db) "UCIS" = true ↔ _
  unfold eDoc
  rw [validE_complex (ct := tUcis) (by decide) rfl]
  have h1 : attrsOk tUcis [("writtenBy", env.user), ("writtenTime", env.today), ("ucisVersion", "1.0")] = true := by
    rw [attrsOk_eq]; simp [tUcis, attrOk, Simple.valid, ht]
  have h2 : ((fileTable db.root).map eFile ++ eHistory env db.hist ++ (kids ST.INSTANCE db.root).map (eInst textOf)).map (·.tag) =
      (List.zipWith (fun (o : Occ) n => List.replicate n o.name)
      [⟨"sourceFiles", "SOURCE_FILE", 1, none⟩, ⟨"historyNodes", "HISTORY_NODE", 1, none⟩, ⟨"instanceCoverages", "INSTANCE_COVERAGE", 1, none⟩]
      [(fileTable db.root).length, (eHistory env db.hist).length, (kids ST.INSTANCE db.root).length]).flatten := by
    rw [List.map_append, List.map_append, tags_map (t := "sourceFiles") (fun _ => rfl), tags_eHistory,
      tags_map (t := "instanceCoverages") (fun _ => rfl)]
    simp
  have h3 : tUcis.parts = List.map (fun o => [o])
      [⟨"sourceFiles", "SOURCE_FILE", 1, none⟩, ⟨"historyNodes", "HISTORY_NODE", 1, none⟩, ⟨"instanceCoverages", "INSTANCE_COVERAGE", 1, none⟩] := rfl
  rw [h1, h2, h3, matchParts_runs _ _ rfl (by decide)]
  obtain ⟨hg1, hg2⟩ := goodTable_fileTable db.root
  have h4 : (List.zipWith Occ.allows [⟨"sourceFiles", "SOURCE_FILE", 1, none⟩, ⟨"historyNodes", "HISTORY_NODE", 1, none⟩,
        ⟨"instanceCoverages", "INSTANCE_COVERAGE", 1, none⟩]
      [(fileTable db.root).length, (eHistory env db.hist).length, (kids ST.INSTANCE db.root).length]).all id
        = !(kids ST.INSTANCE db.root).isEmpty := by
    have a1 := List.length_pos_iff.2 hg1
    have a2 := List.length_pos_iff.2 (eHistory_ne_nil env db.hist)
    cases kids ST.INSTANCE db.root
    · simp [Occ.allows]
    · simp [Occ.allows]; omega
  rw [h4]
  by_cases hne : kids ST.INSTANCE db.root = []
  · simp [hne]
  · rw [if_pos (by simpa using hne)]
    simp only [List.zipWith_cons_cons, List.zipWith_nil_right, List.flatten_cons, List.flatten_nil, List.append_nil]
    rw [List.append_assoc, validL_append _ _ _ _ _ (by simp), validL_append _ _ _ _ _ (by simp), validL_map _ _ _ _ rfl, validL_replicate,
      validL_map _ _ _ _ rfl]
    have h5 : (fileTable db.root).all (fun x => validE ucisXsd (eFile x) "SOURCE_FILE") = true :=
      List.all_eq_true.2 (fun f hf => valid_file (hg2 f hf))
    have ht : textOk tUcis none = true := by decide
    rw [h5, ht]
    simp only [Bool.true_and, Bool.and_eq_true, all_eHistory env hn db.hist hd, List.all_eq_true, ne_eq, hne, not_false_iff, true_and]

end Xsd

open Xml Spec

/-- What a database needs so that its document conforms to the schema: an instance; in everything that
is written at least one coverpoint, each coverpoint with at least one bin, no negative count; times and
costs printed in the forms of the schema. -/
structure Spec.SchemaReady (flt : FloatText) (db : Database) : Prop where
  insts : kids ST.INSTANCE db.root ≠ []
  hist : ∀ h ∈ db.hist, TimesOk flt h
  groups : ∀ i ∈ kids ST.INSTANCE db.root, ∀ g ∈ kids ST.COVERGROUP i, ∀ c ∈ writtenGroups g,
    kids ST.COVERPOINT c ≠ [] ∧ (∀ p ∈ kids ST.COVERPOINT c, covBins p ≠ [] ∧ ∀ b ∈ covBins p, 0 ≤ b.count) ∧
    ∀ x ∈ kids ST.CROSS c, ∀ b ∈ covBins x, 0 ≤ b.count

/-- C40: the document that is written conforms to the schema exactly for `SchemaReady` databases. -/
theorem C40_schema_partial {env : Env} (he : GoodEnv env) {db : Database} {doc : Elem} (h : write env db = .ok doc) :
    Xsd.valid Xsd.ucisXsd (reparse doc) = true ↔ SchemaReady env.flt db := by
  obtain ⟨⟨hf, hh, hi⟩, rfl⟩ := (write_ok he.envOk db doc).1 h
  rw [reparse_eDoc]
  have ht : Xsd.isDateTime env.today.toList = true := by
    obtain ⟨d, hd, e⟩ := he.today
    rw [e, String.toList_ofList]; exact Xsd.isDateTime_iso hd
  have hn : Xsd.isDateTime env.now.toList = true := by
    obtain ⟨d, hd, e⟩ := he.now
    rw [e, String.toList_ofList]; exact Xsd.isDateTime_iso hd
  rw [Xsd.valid_doc env ht hn db (fun x hx => (hh x hx).2.2.2.2.2.2.2.2.2.2.2.1)]
  have key : ∀ i ∈ kids ST.INSTANCE db.root, (Xsd.validE Xsd.ucisXsd (eInst textOf i) "INSTANCE_COVERAGE" = true ↔
      ∀ g ∈ kids ST.COVERGROUP i, ∀ c ∈ writtenGroups g,
      kids ST.COVERPOINT c ≠ [] ∧ (∀ p ∈ kids ST.COVERPOINT c, covBins p ≠ [] ∧ ∀ b ∈ covBins p, 0 ≤ b.count) ∧
      ∀ x ∈ kids ST.CROSS c, ∀ b ∈ covBins x, 0 ≤ b.count) := by
    intro i hii
    rw [Xsd.valid_inst]
    refine forall₂_congr (fun g hg => ?_)
    rw [Xsd.valid_cg]
    refine forall₂_congr (fun c hc => ?_)
    exact Xsd.valid_group _ _ (fun p hp b hb => (((((hi i hii).2 g hg).2 c hc).2.1 p hp).2 b hb).2)
  rw [forall₂_congr key]
  exact ⟨fun ⟨a, b, c⟩ => ⟨a, b, c⟩, fun h => ⟨h.insts, h.hist, h.groups⟩⟩

end Verif
