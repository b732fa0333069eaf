import Verif.XmlThms2
/-!
# Examples and refutations for the XML round trip; second writing (C35)
-/

namespace Verif
namespace Xml
open PyNum Spec

/-! ## A concrete environment -/

/-- Text of a number as numerator, slash, denominator. -/
def fracText : FloatText where
  show_ q := String.ofList (intL q.num ++ '/' :: natL q.den)
  read s :=
    if s = "0" then some 0
    else
      match parseIntL (s.toList.takeWhile (· ≠ '/')), parseIntL ((s.toList.dropWhile (· ≠ '/')).drop 1) with
      | some n, some d => some (mkRat n d.toNat)
      | _, _ => none

theorem digit_ne_slash {c : Char} (h : c.isDigit = true) : c ≠ '/' := by
  rintro rfl
  exact absurd h (by decide)

theorem intL_ne_slash (z : Int) : ∀ c ∈ intL z, c ≠ '/' := by
  intro c hc
  cases z with
  | ofNat n => exact digit_ne_slash (natL_digit hc)
  | negSucc n =>
    rcases List.mem_cons.1 hc with rfl | hc
    · decide
    · exact digit_ne_slash (natL_digit hc)

theorem parseIntL_intL (z : Int) : parseIntL (intL z) = some z := by
  have := parseInt_strInt z
  unfold parseInt strInt at this
  rw [String.toList_ofList] at this
  revert this
  cases parseIntL (intL z) with
  | none => intro h; cases h
  | some y => intro h; cases h; rfl

theorem fracText_round (q : Rat) : fracText.read (fracText.show_ q) = some q := by
  have h1 : (intL q.num ++ '/' :: natL q.den).takeWhile (· ≠ '/') = intL q.num := by
    rw [List.takeWhile_append_of_pos (by simpa using intL_ne_slash q.num)]
    simp
  have h2 : (intL q.num ++ '/' :: natL q.den).dropWhile (· ≠ '/') = '/' :: natL q.den := by
    rw [List.dropWhile_append_of_pos (by simpa using intL_ne_slash q.num)]
    simp
  have h3 : String.ofList (intL q.num ++ '/' :: natL q.den) ≠ "0" := by
    intro h
    have h := congrArg String.toList h
    rw [String.toList_ofList] at h
    have : '/' ∈ ("0" : String).toList := by
      rw [← h]; simp
    exact absurd this (by decide)
  unfold fracText
  simp only
  rw [if_neg h3, String.toList_ofList, h1, h2, parseIntL_intL]
  have : parseIntL (natL q.den) = some (q.den : Int) := parseIntL_intL (q.den : Int)
  rw [List.drop_one, List.tail_cons, this]
  simp [Rat.mkRat_self]

def exEnv : Env := ⟨"user", "2026-11-16T00:00:00", "2026-11-16T01:02:03", fracText⟩

theorem exEnv_good : GoodEnv exEnv where
  user := by unfold Printable; decide
  today := ⟨⟨2026, 11, 16, 0, 0, 0⟩, by decide, by decide⟩
  now := ⟨⟨2026, 11, 16, 1, 2, 3⟩, by decide, by decide⟩
  round := fracText_round
  zero := by decide

end Xml

open Xml Spec PyNum

/-- Helps instance search on the nested views. -/
instance (priority := high) decNamed {α : Type} [DecidableEq α] : DecidableEq (List (String × α)) := inferInstance

instance (priority := high) decView {α : Type} [DecidableEq α] : DecidableEq (List (String × List (String × List (String × α)))) :=
  @decNamed _ (@decNamed _ (@decNamed α _))

instance (priority := high) decCp : DecidableEq (List (String × List (String × Nat × Int))) := @decNamed _ (@decNamed _ _)

instance (priority := high) decCross : DecidableEq (List (String × Option (List String) × List (String × Nat × Int))) :=
  @decNamed _ (@instDecidableEqProd _ _ inferInstance (@decNamed _ _))

/-- An instance with two covergroups, one with two cover-instances and a cross, one flat. -/
def exXmlDb : Database where
  root := { emptyDb with children :=
    [mkDu "du" ⟨some "a.sv", 1, 0⟩ 1,
     mkInstance "top" ⟨some "b.sv", 3, 0⟩ 1 none
      [mkCovergroup "cg" ⟨some "a.sv", 7, 0⟩ 2
        [mkCoverInst "i1" SrcInfo.none 1
          [mkCoverpoint "a" SrcInfo.none 1 [mkBin "x" CT.CVGBIN 1 3, mkBin "y" CT.IGNOREBIN 1 (-2)],
           mkCoverpoint "b" SrcInfo.none 1 [mkBin "x" CT.ILLEGALBIN 1 0],
           mkCross "ab" SrcInfo.none 1 ["a", "b"] [mkBin "<x,x>" CT.CVGBIN 1 9]],
         mkCoverInst "i2" SrcInfo.none 1 [mkCoverpoint "a" SrcInfo.none 1 [mkBin "x" CT.CVGBIN 1 5]]],
       mkCovergroup "flat" SrcInfo.none 1 [mkCoverpoint "c" SrcInfo.none 1 [mkBin "z" CT.CVGBIN 1 1]]]] }
  hist := [{ Hist.create 0 (some "t1") none (some "k") with date := .text "20240229235959", seed := some "7", cost := 5 / 2, status := 0 }]
  files := []

/-- The round trip as one function. -/
def roundTrip (env : Env) (db : Database) : Except Err Database := do
  let doc ← write env db
  read env.flt (reparse doc)

theorem roundTrip_ok {env : Env} {db db' : Database} :
    roundTrip env db = .ok db' ↔ ∃ doc, write env db = .ok doc ∧ read env.flt (reparse doc) = .ok db' := by
  unfold roundTrip
  rw [Ex.bind_ok]

theorem exists_of_isOk {α : Type} {x : Except Err α} (h : x.isOk = true) : ∃ y, x = .ok y := by
  cases x with
  | error e => cases h
  | ok y => exact ⟨y, rfl⟩

/-- The hypotheses of C31, C32, C35, C38, C39 and C68 are met by a database with several groups. -/
example : UniqueInsts exXmlDb.root ∧ (roundTrip exEnv exXmlDb).isOk = true ∧ exXmlDb.hist ≠ [] := by
  refine ⟨by unfold UniqueInsts; decide +kernel, by decide +kernel, by simp [exXmlDb]⟩

example : TrimmedCrosses exXmlDb.root := by
  unfold TrimmedCrosses Trimmed
  decide +kernel

/-- The same database after the round trip, read off directly. -/
example : (roundTrip exEnv exXmlDb).map (fun d => dbView cpView d.root) = .ok
    [("top", [("cg", [("i1", [("a", [("x", CT.CVGBIN, 3), ("y", CT.IGNOREBIN, -2)]), ("b", [("x", CT.ILLEGALBIN, 0)])]),
                      ("i2", [("a", [("x", CT.CVGBIN, 5)])])]),
              ("flat", [("flat", [("c", [("z", CT.CVGBIN, 1)])])])])] := by
  decide +kernel

/-! ## C32 refuted -/

/-- One covergroup with a cross that has an ignore bin. -/
def exKindDb : Database where
  root := { emptyDb with children :=
    [mkInstance "top" SrcInfo.none 1 none
      [mkCovergroup "cg" SrcInfo.none 1
        [mkCoverpoint "a" SrcInfo.none 1 [mkBin "x" CT.CVGBIN 1 1],
         mkCross "aa" SrcInfo.none 1 ["a", "a"] [mkBin "<x,x>" CT.IGNOREBIN 1 4]]]] }
  hist := []
  files := []

/-- C32 as stated is false: the kind of a cross bin is lost. -/
theorem C32_cross_kinds_refuted :
    ¬ ∀ (env : Env) (db db' : Database) (doc : Elem), GoodEnv env → UniqueInsts db.root → TrimmedCrosses db.root →
      write env db = .ok doc → read env.flt (reparse doc) = .ok db' → dbView crossKindView db'.root = dbView crossKindView db.root := by
  intro h
  obtain ⟨db', hdb⟩ := exists_of_isOk (x := roundTrip exEnv exKindDb) (by decide +kernel)
  obtain ⟨doc, h1, h2⟩ := roundTrip_ok.1 hdb
  have h3 := h exEnv exKindDb db' doc exEnv_good (by unfold UniqueInsts; decide +kernel)
    (by unfold TrimmedCrosses Trimmed; decide +kernel) h1 h2
  have h4 : (roundTrip exEnv exKindDb).map (fun d => dbView crossKindView d.root) ≠ .ok (dbView crossKindView exKindDb.root) := by
    decide +kernel
  rw [hdb] at h4
  exact h4 (congrArg Except.ok h3)

/-- The hypothesis on kinds of `C32_cross_kinds_partial` is met by the example with a cross. -/
example : ∀ i ∈ kids ST.INSTANCE exXmlDb.root, ∀ g ∈ kids ST.COVERGROUP i, ∀ c ∈ writtenGroups g, ∀ cr ∈ kids ST.CROSS c,
    ∀ b ∈ covBins cr, b.kind = CT.CVGBIN := by decide +kernel

/-! ## C39 refuted -/

/-- A history node of a test that ended with status 2 (warning). -/
def exStatusDb : Database where
  root := emptyDb
  hist := [{ Hist.create 0 (some "t1") none none with date := .text "20240229235959", status := 2 }]
  files := []

/-- C39 as stated is false: status 2 is read back as 1. -/
theorem C39_history_refuted :
    ¬ ∀ (env : Env) (db db' : Database) (doc : Elem), GoodEnv env → db.hist ≠ [] →
      (∀ h ∈ db.hist, ∃ s, h.date = .text s ∧ ValidDate s) →
      write env db = .ok doc → read env.flt (reparse doc) = .ok db' → db'.hist.map Hist.view = db.hist.map Hist.view := by
  intro h
  obtain ⟨db', hdb⟩ := exists_of_isOk (x := roundTrip exEnv exStatusDb) (by decide +kernel)
  obtain ⟨doc, h1, h2⟩ := roundTrip_ok.1 hdb
  have h3 := h exEnv exStatusDb db' doc exEnv_good (by simp [exStatusDb])
    (by
      intro h hh
      simp only [exStatusDb, List.mem_singleton] at hh
      subst hh
      exact ⟨_, rfl, ⟨2024, 2, 29, 23, 59, 59⟩, by decide, by decide, by decide⟩) h1 h2
  have h4 : (roundTrip exEnv exStatusDb).map (fun d => d.hist.map (·.status)) ≠ .ok (exStatusDb.hist.map (·.status)) := by
    decide +kernel
  rw [hdb] at h4
  refine h4 (congrArg Except.ok ?_)
  have := congrArg (List.map HistView.status) h3
  rw [List.map_map, List.map_map] at this
  exact this

example : (∀ h ∈ exXmlDb.hist, h.status = 0 ∨ h.status = 1) ∧
    (∀ h ∈ exXmlDb.hist, NumOk h.simTime ∧ NumOk h.cpuTime ∧ NumOk h.cost ∧ (0 ≤ h.sameTests ∨ h.sameTests = -1)) ∧
    ∀ h ∈ exXmlDb.hist, ∃ s, h.date = .text s ∧ ValidDate s := by
  refine ⟨by decide +kernel, by unfold NumOk; decide +kernel, ?_⟩
  intro h hh
  simp only [exXmlDb, List.mem_singleton] at hh
  subst hh
  exact ⟨_, rfl, ⟨2024, 2, 29, 23, 59, 59⟩, by decide, by decide, by decide⟩

example : ValidDate "20000229000000" := ⟨⟨2000, 2, 29, 0, 0, 0⟩, by decide, by decide, by decide⟩

/-- Outside the stated range the date does not survive: year 999 is written back with three digits. -/
theorem C41_small_year_refuted : ∃ s iso t, DateTime.toIso s = .ok iso ∧ DateTime.fromIso iso = .ok t ∧ t ≠ s :=
  ⟨"09990101000000", "0999-01-01T00:00:00", "9990101000000", by decide +kernel, by decide +kernel, by decide +kernel⟩

example : PlainTypes exXmlDb.root ∧ fileNames exXmlDb.root = ["a.sv", "b.sv", "a.sv"] := by
  unfold PlainTypes
  decide +kernel

/-! ## C35: the second write is accepted, and outside the hypotheses it differs -/

theorem writable_rInst {i : Scope} (hw : WritableInst i)
    (ht : ∀ g ∈ kids ST.COVERGROUP i, ∀ c ∈ writtenGroups g, ∀ cr ∈ kids ST.CROSS c, ∀ n ∈ cr.cps.getD [], Trimmed n) :
    WritableInst (rInst i) := by
  refine ⟨hw.1, ?_⟩
  rw [kids_rInst]
  intro g' hg'
  obtain ⟨g, hg, rfl⟩ := List.mem_map.1 hg'
  refine ⟨(hw.2 g hg).1, ?_⟩
  rw [writtenGroups_rCg]
  intro c' hc'
  obtain ⟨c, hc, rfl⟩ := List.mem_map.1 hc'
  obtain ⟨w1, w2, w3⟩ := (hw.2 g hg).2 c hc
  refine ⟨w1, ?_, ?_⟩
  · rw [kids_pInst_cp]
    intro x' hx'
    obtain ⟨x, hx, rfl⟩ := List.mem_map.1 hx'
    refine ⟨(w2 x hx).1, ?_⟩
    rw [covBins_pCp]
    intro b' hb'
    obtain ⟨b, hb, rfl⟩ := List.mem_map.1 hb'
    exact (w2 x hx).2 b hb
  · rw [kids_pInst_cross]
    intro x' hx'
    obtain ⟨x, hx, rfl⟩ := List.mem_map.1 hx'
    obtain ⟨v1, ⟨l, hl, hl'⟩, v3⟩ := w3 x hx
    refine ⟨v1, ⟨l, ?_, hl'⟩, ?_⟩
    · show some (pCr x).exprs = _
      rw [pCr_exprs (w3 x hx) (ht g hg c hc x hx), hl]
    · rw [covBins_pCr]
      intro b' hb'
      obtain ⟨b, hb, rfl⟩ := List.mem_map.1 hb'
      exact v3 b hb

/-- The date is a text with a year of four digits not starting with zero. -/
def BigYear (d : DateVal) : Prop :=
  ∃ s t, d = .text s ∧ DateTime.strptime DateTime.compactFmt s.toList = .ok t ∧ 1000 ≤ t.year

theorem dateOk_rDate {d : DateVal} (h : BigYear d) : DateOk (rDate d) := by
  obtain ⟨s, t, rfl, h1, h2⟩ := h
  unfold rDate
  simp only [h1]
  refine ⟨_, t, rfl, ?_⟩
  rw [String.toList_ofList, DateTime.strptime_compact (DateTime.strptime_ok h1) h2]

theorem writable_rHist {flt flt' : FloatText} {h : Hist} (hp : ∀ x, Printable (flt'.show_ x)) (hw : WritableHist flt h)
    (hd : BigYear h.date) : WritableHist flt' (rHist h) := by
  obtain ⟨w1, w2, w3, _, w5, w6, _, w8, w9, w10, w11, _, w13, _, w15, _, w17, w18, w19, w20⟩ := hw
  exact ⟨w1, w2, w3, fun _ => hp _, w5, w6, fun _ => hp _, w8, w9, w10, w11, dateOk_rDate hd, w13, fun _ => hp _, w15,
    show Printable "1.0" by unfold Printable; decide, w17, w18, w19, w20⟩

theorem optPrintable_none : OptPrintable none := fun _ h => nomatch h

theorem optPrintable_some {s : String} (h : Printable s) : OptPrintable (some s) := fun _ e => Option.some.inj e ▸ h

theorem writable_rDummy {env : Env} {flt' : FloatText} (hp : ∀ x, Printable (flt'.show_ x))
    (hn : ∃ d : DateTime.DT, d.ok = true ∧ 1000 ≤ d.year ∧ env.now = String.ofList (DateTime.iso d)) :
    WritableHist flt' (rDummy (nowText env)) := by
  obtain ⟨d, hd, hy, hnow⟩ := hn
  have h1 : DateTime.fromIso env.now = .ok (String.ofList (DateTime.compact d)) := by
    rw [hnow]; unfold DateTime.fromIso; rw [String.toList_ofList, DateTime.strptime_iso hd]; rfl
  have h2 : nowText env = String.ofList (DateTime.compact d) := by unfold nowText; rw [h1]
  have hd' : DateOk (.text (nowText env)) := by
    refine ⟨_, d, rfl, ?_⟩
    rw [h2, String.toList_ofList, DateTime.strptime_compact hd hy]
  have p1 : Printable "dummy" := by unfold Printable; decide
  have p2 : Printable "0" := by unfold Printable; decide
  have p3 : Printable "" := by unfold Printable; decide
  have p4 : Printable "unknown" := by unfold Printable; decide
  exact ⟨⟨_, rfl, p1⟩, optPrintable_some p1, optPrintable_some p1, fun _ => hp _, optPrintable_some p2, optPrintable_some p3,
    fun _ => hp _, optPrintable_some p2, optPrintable_some p3, optPrintable_some p3, optPrintable_none, hd', optPrintable_some p1,
    fun _ => hp _, p4, show Printable "1.0" by unfold Printable; decide, p4,
    show Printable "PyUCIS" by unfold Printable; decide, p4, optPrintable_none⟩

mutual
/-- No scope carries a file name. -/
def noFiles : Scope → Bool
  | ⟨_, _, src, _, _, _, ch, _⟩ => src.file.isNone && noFilesL ch
termination_by structural s => s
def noFilesL : List Scope → Bool
  | [] => true
  | s :: t => noFiles s && noFilesL t
termination_by structural l => l
end

mutual
theorem findFiles_none : ∀ (s : Scope) (m : Dict Nat), noFiles s = true → findFiles s m = m
  | ⟨ty, n, src, w, du, cps, ch, it⟩, m, h => by
    rw [noFiles, Bool.and_eq_true] at h
    rw [findFiles]
    have : src.file = none := by simpa using h.1
    rw [this]
    exact findFilesL_none ch m h.2
termination_by structural s => s
theorem findFilesL_none : ∀ (l : List Scope) (m : Dict Nat), noFilesL l = true → findFilesL l m = m
  | [], m, _ => by rw [findFilesL]
  | s :: t, m, h => by
    rw [noFilesL, Bool.and_eq_true] at h
    rw [findFilesL, findFiles_none s m h.1, findFilesL_none t _ h.2]
    split <;> rfl
termination_by structural l => l
end

theorem noFilesL_iff (l : List Scope) : noFilesL l = true ↔ ∀ s ∈ l, noFiles s = true := by
  induction l with
  | nil => simp [noFilesL]
  | cons a t ih => simp [noFilesL, ih]

theorem noFiles_cp (n : String) (bs : List Item) : noFiles (mkCoverpoint n SrcInfo.none 1 bs) = true := by
  simp [mkCoverpoint, noFiles, noFilesL, SrcInfo.none]

theorem noFiles_cross (n : String) (l : List String) (bs : List Item) : noFiles (mkCross n SrcInfo.none 1 l bs) = true := by
  simp [mkCross, noFiles, noFilesL, SrcInfo.none]

theorem noFiles_inst (p : PInst) : noFiles p.scope = true := by
  unfold PInst.scope mkCoverInst
  rw [noFiles]
  refine Bool.and_eq_true _ _ ▸ ⟨rfl, (noFilesL_iff _).2 ?_⟩
  intro s hs
  rcases List.mem_append.1 hs with hs | hs
  · obtain ⟨x, _, rfl⟩ := List.mem_map.1 hs
    exact noFiles_cp _ _
  · obtain ⟨x, _, rfl⟩ := List.mem_map.1 hs
    exact noFiles_cross _ _ _

theorem noFiles_group (name : String) (ps : List PInst) : noFiles (buildGroup name ps) = true := by
  unfold buildGroup mkCovergroup
  simp only
  rw [noFiles]
  refine Bool.and_eq_true _ _ ▸ ⟨rfl, (noFilesL_iff _).2 ?_⟩
  intro s hs
  obtain ⟨x, hx, rfl⟩ := List.mem_map.1 hs
  cases x with
  | inst s =>
    have h := (foldl_stepInst_closed ps).2.2.1
    have : s ∈ ps.map PInst.scope := by
      rw [← h]
      exact List.mem_filterMap.2 ⟨_, hx, rfl⟩
    obtain ⟨p, _, rfl⟩ := List.mem_map.1 this
    exact noFiles_inst p
  | cp n => exact noFiles_cp _ _
  | cross n l => exact noFiles_cross _ _ _

theorem fileTable_rDb {env : Env} {db : Database} (hu : UniqueInsts db.root) : fileTable (rDb env db).root = [("__null__file__", 1)] := by
  unfold fileTable
  apply findFilesL_none
  show noFilesL (rTops (kids ST.INSTANCE db.root)) = true
  rw [rTops_closed _ hu, noFilesL_iff]
  intro s hs
  split at hs
  · cases hs
  · rcases List.mem_cons.1 hs with rfl | hs
    · rfl
    · obtain ⟨i, _, rfl⟩ := List.mem_map.1 hs
      unfold rInst mkInstance
      rw [noFiles]
      refine Bool.and_eq_true _ _ ▸ ⟨rfl, (noFilesL_iff _).2 ?_⟩
      intro g hg
      obtain ⟨g', _, rfl⟩ := List.mem_map.1 hg
      exact noFiles_group _ _

/-- C35: the database read back is accepted by the writer again, for dates from the year 1000 on. -/
theorem C35_second_write_accepted {env env' : Env} (he : GoodEnv env) (he' : GoodEnv env') {db db' : Database} {doc : Elem}
    (hp : ∀ x, Printable (env'.flt.show_ x))
    (hn : ∃ d : DateTime.DT, d.ok = true ∧ 1000 ≤ d.year ∧ env.now = String.ofList (DateTime.iso d))
    (hd : ∀ h ∈ db.hist, BigYear h.date) (hu : UniqueInsts db.root) (ht : TrimmedCrosses db.root)
    (hw : write env db = .ok doc) (hr : read env.flt (reparse doc) = .ok db') :
    ∃ doc', write env' db' = .ok doc' ∧ instancePart doc' = instancePart doc := by
  obtain ⟨_, hdb⟩ := (read_written he.envOk he.floatOk he.now hw db').1 hr
  obtain ⟨⟨_, h2, h3⟩, _⟩ := (write_ok he.envOk db doc).1 hw
  have hok : ∃ doc', write env' db' = .ok doc' := by
    refine ⟨_, (write_ok he'.envOk db' _).2 ⟨⟨?_, ?_, ?_⟩, rfl⟩⟩
    · rw [hdb, fileTable_rDb hu]
      intro f hf
      rw [List.mem_singleton.1 hf]
      unfold Printable
      decide
    · rw [hdb]
      show ∀ h ∈ rHistory env db.hist, _
      intro h hh
      cases hl : db.hist with
      | nil =>
        rw [hl] at hh
        rw [List.mem_singleton.1 hh]
        exact writable_rDummy hp hn
      | cons a t =>
        rw [hl] at hh
        obtain ⟨x, hx, rfl⟩ := List.mem_map.1 hh
        rw [← hl] at hx
        exact writable_rHist hp (h2 x hx) (hd x hx)
    · rw [hdb, kids_rDb hu]
      intro i hi
      obtain ⟨i, hi', rfl⟩ := List.mem_map.1 hi
      exact writable_rInst (h3 i hi') (ht i hi')
  obtain ⟨doc', hw'⟩ := hok
  exact ⟨doc', hw', C35_write_stable he he' hu ht hw hr hw'⟩

theorem fracText_printable (q : Rat) : Printable (fracText.show_ q) := by
  apply printable_ofList
  intro c hc
  rcases List.mem_append.1 hc with hc | hc
  · cases h : q.num with
    | ofNat n => rw [h] at hc; exact digit_range (natL_digit hc)
    | negSucc n =>
      rw [h] at hc
      rcases List.mem_cons.1 hc with rfl | hc
      · decide
      · exact digit_range (natL_digit hc)
  · rcases List.mem_cons.1 hc with rfl | hc
    · decide
    · exact digit_range (natL_digit hc)

example : (∀ x, Printable (exEnv.flt.show_ x)) ∧ (∀ h ∈ exXmlDb.hist, BigYear h.date) := by
  refine ⟨fracText_printable, ?_⟩
  intro h hh
  simp only [exXmlDb, List.mem_singleton] at hh
  subst hh
  exact ⟨_, ⟨2024, 2, 29, 23, 59, 59⟩, rfl, by decide +kernel, by decide⟩

/-- Two instances of the same name. -/
def exTwinDb : Database where
  root := { emptyDb with children :=
    [mkInstance "top" SrcInfo.none 1 none [], mkInstance "top" SrcInfo.none 1 none []] }
  hist := []
  files := []

/-- Without unique instance names neither C31 nor C35 holds: same-named instances are joined. -/
theorem C35_same_named_refuted :
    ∃ (env : Env) (db db' : Database) (doc doc' : Elem), GoodEnv env ∧ TrimmedCrosses db.root ∧ write env db = .ok doc ∧
      read env.flt (reparse doc) = .ok db' ∧ write env db' = .ok doc' ∧ instancePart doc' ≠ instancePart doc ∧
      dbView cpView db'.root ≠ dbView cpView db.root := by
  obtain ⟨doc, h1⟩ := exists_of_isOk (x := write exEnv exTwinDb) (by decide +kernel)
  obtain ⟨db', hdb⟩ := exists_of_isOk (x := roundTrip exEnv exTwinDb) (by decide +kernel)
  have h2 : read exEnv.flt (reparse doc) = .ok db' := by
    obtain ⟨doc2, h3, h4⟩ := roundTrip_ok.1 hdb
    rw [h1] at h3
    cases h3
    exact h4
  obtain ⟨doc', h5⟩ := exists_of_isOk (x := roundTrip exEnv exTwinDb >>= write exEnv) (by decide +kernel)
  have h6 : write exEnv db' = .ok doc' := by rw [hdb] at h5; exact h5
  refine ⟨exEnv, exTwinDb, db', doc, doc', exEnv_good, by unfold TrimmedCrosses Trimmed; decide +kernel, h1, h2, h6, ?_, ?_⟩
  · intro h
    have e1 : (write exEnv exTwinDb).map (fun d => (instancePart d).length) = .ok 2 := by decide +kernel
    have e2 : (roundTrip exEnv exTwinDb >>= write exEnv).map (fun d => (instancePart d).length) = .ok 1 := by decide +kernel
    rw [h1] at e1
    rw [h5] at e2
    have e1 : (instancePart doc).length = 2 := Except.ok.inj e1
    have e2 : (instancePart doc').length = 1 := Except.ok.inj e2
    rw [h, e1] at e2
    cases e2
  · intro h
    have e1 : (roundTrip exEnv exTwinDb).map (fun d => (dbView cpView d.root).length) = .ok 1 := by decide +kernel
    rw [hdb] at e1
    have e1 : (dbView cpView db'.root).length = 1 := Except.ok.inj e1
    rw [h] at e1
    exact absurd e1 (by decide +kernel)

end Verif
