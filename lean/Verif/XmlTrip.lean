import Verif.XmlFigures
/-!
# What an XML file keeps of a report, exactly

C36 says that the figures of a database survive writing and reading as XML, which is true for some databases only.  Here the report after
writing and reading is computed from the database for all of them.
-/

namespace Verif
namespace Spec
open Report (RCg)

/-- The crosses of a group as they come back from a file: all bins are ordinary. -/
def tripCrosses (c : Scope) : List (String × Option (List String) × List (String × Nat × Int)) :=
  (kids ST.CROSS c).map (fun x => (x.name, x.cps, (covBins x).map (fun b => (b.name, CT.CVGBIN, b.count))))

/-- Report on a covergroup that was written and read: its cover-instances (itself if it has none) are the entries of the type, all
thresholds and weights are 1, and the type level is put together from the entries. -/
def tripLine (g : Scope) : RCg := typeLine (g.name, (writtenGroups g).map (fun c => (c.name, cpView c, tripCrosses c)))

/-- Overall figure of the report: the average over the covergroups of the last instance. -/
def tripTotal (db : Scope) : Rat :=
  ((kids ST.INSTANCE db).getLast?.map (fun i => average ((kids ST.COVERGROUP i).map (fun g => (tripLine g).coverage)))).getD 0

/-- Number of covergroups of an instance, and of coverpoints and crosses of a group in the report. -/
structure TripSize (K : Nat) (db : Scope) : Prop where
  groups : ∀ i ∈ kids ST.INSTANCE db, (kids ST.COVERGROUP i).length ≤ K
  parts : ∀ g ∈ allCovergroups db, ∀ l ∈ tripLine g :: (tripLine g).covergroups, l.coverpoints.length + l.crosses.length ≤ K

end Spec

namespace Xml
open Spec Report

/-- Coverpoints and crosses of a group, with the cross bins made ordinary. -/
def flatEntry (c : Scope) : List (String × List (String × Nat × Int)) × List (String × List (String × Nat × Int)) :=
  (cpView c, (kids ST.CROSS c).map (fun x => (x.name, (covBins x).map (fun b => (b.name, CT.CVGBIN, b.count)))))

/-- `typeLine` without the crossed names. -/
def flatLine (p : String × List (String × List (String × List (String × Nat × Int)) × List (String × List (String × Nat × Int)))) : RCg :=
  groupLine p.1 (sums (p.2.flatMap (fun e => e.2.1))) (sums (p.2.flatMap (fun e => e.2.2)))
    (p.2.map (fun e => groupLine e.1 e.2.1 e.2.2 []))

theorem tripLine_flat (g : Scope) : tripLine g = flatLine (g.name, (writtenGroups g).map (fun c => (c.name, flatEntry c))) := by
  unfold tripLine typeLine flatLine flatEntry entryCrosses tripCrosses
  simp only [List.flatMap_map, List.map_map, Function.comp_def]

/-- Entries of a document with the cross bins made ordinary. -/
def flatten (e : List (String × List (String × Nat × Int)) × List (String × Option (List String) × List (String × Nat × Int))) :
    List (String × List (String × Nat × Int)) × List (String × List (String × Nat × Int)) :=
  (e.1, e.2.map (fun x => (x.1, x.2.2.map (fun b => (b.1, CT.CVGBIN, b.2.2)))))

theorem flatEntry_eq (c : Scope) : flatEntry c = flatten (cpView c, crossKindView c) := by
  unfold flatEntry flatten crossKindView binTriples
  simp only [List.map_map, Function.comp_def]

theorem dbView_map {α β : Type} (f : Scope → α) (h : α → β) (db : Scope) :
    dbView (fun c => h (f c)) db = (dbView f db).map (fun i => (i.1, i.2.map (fun g => (g.1, g.2.map (fun c => (c.1, h c.2)))))) := by
  unfold dbView
  simp only [List.map_map, Function.comp_def]

/-- The cross bins of a document are all ordinary, so that nothing is lost. -/
theorem docCrosses_flat (g : Elem) :
    (docCrosses g).map (fun x => (x.1, x.2.2.map (fun b => (b.1, CT.CVGBIN, b.2.2)))) = (docCrosses g).map (fun x => (x.1, x.2.2)) := by
  unfold docCrosses
  simp only [List.map_map, Function.comp_def, crossBinOf]
  rfl

theorem docView_lines (doc : Elem) :
    (docView doc).map (fun i => (i.1, i.2.map typeLine)) =
      ((docView doc).map (fun i => (i.1, i.2.map (fun g => (g.1, g.2.map (fun c => (c.1, flatten c.2))))))).map
        (fun i => (i.1, i.2.map flatLine)) := by
  unfold docView
  simp only [List.map_map, Function.comp_def, List.map_flatMap]
  apply List.map_congr_left
  intro n _
  refine Prod.ext rfl ?_
  simp only [typeLine, flatLine, flatten, entryCrosses, docCrosses_flat, List.map_map, Function.comp_def, List.flatMap_map]

theorem flatEntry_pInst (c : Scope) : flatEntry (pInst c).scope = flatEntry c := by
  unfold flatEntry
  rw [cpView_pInst, kids_pInst_cross, List.map_map]
  congr 1
  apply List.map_congr_left
  intro x _
  simp only [Function.comp]
  rw [covBins_pCr]
  simp [Function.comp_def, mkCross, mkBin]

/-- Names of instances and lines of their covergroups, from the document and from the database. -/
theorem trip_lines {env : Env} (he : GoodEnv env) {db db' : Database} {doc : Elem} (hu : UniqueInsts db.root)
    (hw : write env db = .ok doc) (hr : Xml.read env.flt (reparse doc) = .ok db') :
    (docView (reparse doc)).map (fun i => (i.1, i.2.map typeLine))
      = (kids ST.INSTANCE db.root).map (fun i => (i.name, (kids ST.COVERGROUP i).map tripLine)) := by
  have h1 := C69_reader_content hr
  have h2 : dbView flatEntry db'.root = dbView flatEntry db.root := by
    obtain ⟨_, rfl⟩ := (read_written he.envOk he.floatOk he.now hw db').1 hr
    exact dbView_rDb hu (fun _ _ _ _ c _ => flatEntry_pInst c)
  rw [docView_lines, ← h1, ← dbView_map, ← (funext flatEntry_eq : flatEntry = fun c => flatten (cpView c, crossKindView c)), h2]
  unfold dbView
  simp only [List.map_map, Function.comp_def]
  rw [funext tripLine_flat]

end Xml

open Xml Spec Report

/-- C36, exactly: the report on what is read back lists the covergroups as computed from the database, and gives their average over the last
instance as the overall figure. -/
theorem C36_after_trip {env : Env} (he : GoodEnv env) {db db' : Database} {doc : Elem} {r' : Rpt} (hu : UniqueInsts db.root)
    (hw : write env db = .ok doc) (hr : Xml.read env.flt (reparse doc) = .ok db') (hb : build id db'.root = .ok r') :
    r'.covergroups = (allCovergroups db.root).map tripLine ∧ r'.coverage = tripTotal db.root := by
  have h := trip_lines he hu hw hr
  obtain ⟨h1, h2⟩ := C112_report hr hb
  have hl : (docView (reparse doc)).map (fun i => i.2.map typeLine) = (kids ST.INSTANCE db.root).map (fun i => (kids ST.COVERGROUP i).map tripLine) := by
    have := congrArg (List.map Prod.snd) h
    simpa only [List.map_map, Function.comp_def] using this
  constructor
  · rw [h1]
    unfold docLines allCovergroups
    rw [List.flatMap_def, hl, List.map_flatMap, List.flatMap_def]
  · rw [h2]
    unfold docTotal tripTotal
    have e1 : (docView (reparse doc)).getLast?.map (fun i => average (i.2.map (fun p => (typeLine p).coverage)))
        = ((docView (reparse doc)).map (fun i => i.2.map typeLine)).getLast?.map (fun l => average (l.map (·.coverage))) := by
      rw [List.getLast?_map, Option.map_map]
      simp only [Function.comp_def, List.map_map]
    have e2 : (kids ST.INSTANCE db.root).getLast?.map (fun i => average ((kids ST.COVERGROUP i).map (fun g => (tripLine g).coverage)))
        = ((kids ST.INSTANCE db.root).map (fun i => (kids ST.COVERGROUP i).map tripLine)).getLast?.map (fun l => average (l.map (·.coverage))) := by
      rw [List.getLast?_map, Option.map_map]
      simp only [Function.comp_def, List.map_map]
    rw [e1, e2, hl]

/-- C36, exactly: a report can be made of what is read back if and only if every instance of the database has a covergroup. -/
theorem C36_report_made {env : Env} (he : GoodEnv env) {db db' : Database} {doc : Elem} (hu : UniqueInsts db.root)
    (hw : write env db = .ok doc) (hr : Xml.read env.flt (reparse doc) = .ok db') :
    (∃ r', build id db'.root = .ok r') ↔ ∀ i ∈ kids ST.INSTANCE db.root, kids ST.COVERGROUP i ≠ [] := by
  have h := trip_lines he hu hw hr
  rw [C112_made hr]
  have e1 : (∀ i ∈ docView (reparse doc), i.2 ≠ []) ↔ ∀ p ∈ (docView (reparse doc)).map (fun i => (i.1, i.2.map typeLine)), p.2 ≠ [] := by
    simp only [List.forall_mem_map, ne_eq, List.map_eq_nil_iff]
  rw [e1, h]
  simp only [List.forall_mem_map, ne_eq, List.map_eq_nil_iff]

/-- C36, exactly, in binary64: the figures differ from those computed from the database by at most `200 (2K + 5) / 2^53` percent. -/
theorem C36_after_trip_binary64 {env : Env} (he : GoodEnv env) {db db' : Database} {doc : Elem} {r' : Rpt} {K : Nat} (hK : K ≤ 2 ^ 50)
    (hu : UniqueInsts db.root) (hs : TripSize K db.root) (hw : write env db = .ok doc)
    (hr : Xml.read env.flt (reparse doc) = .ok db') (hb : build round64 db'.root = .ok r') :
    CloseReports (200 * (2 * (K : Rat) + 5) / 2 ^ 53) r' ⟨(allCovergroups db.root).map tripLine, [], tripTotal db.root⟩ := by
  have h := trip_lines he hu hw hr
  have hl : docLines (reparse doc) = (allCovergroups db.root).map tripLine := by
    have := congrArg (List.map Prod.snd) h
    simp only [List.map_map, Function.comp_def] at this
    unfold docLines allCovergroups
    rw [List.flatMap_def, this, List.map_flatMap, List.flatMap_def]
  have hd : DocSize K (reparse doc) := by
    constructor
    · intro i hi
      have : (i.1, i.2.map typeLine) ∈ (docView (reparse doc)).map (fun i => (i.1, i.2.map typeLine)) := List.mem_map_of_mem hi
      rw [h] at this
      obtain ⟨j, hj, he⟩ := List.mem_map.1 this
      have := hs.groups j hj
      have e := congrArg (fun p => p.2.length) he
      simp only [List.length_map] at e
      omega
    · intro l hlm
      rw [hl] at hlm
      obtain ⟨g, hg, rfl⟩ := List.mem_map.1 hlm
      exact hs.parts g hg
  have hm := C112_binary64 hr hK hd hb
  have ht : docTotal (reparse doc) = tripTotal db.root := by
    have hmade : ∃ r0, build id db'.root = .ok r0 := by
      have h1 := (C70_report_of_read hr round64).1 ⟨_, hb⟩
      exact (C70_report_of_read hr id).2 h1
    obtain ⟨r0, h0⟩ := hmade
    rw [← (C36_after_trip he hu hw hr h0).2, (C112_report hr h0).2]
  rw [hl, ht] at hm
  exact hm

/-- The two databases that refute C36 are computed rightly: 100% instead of 0%, and 50% instead of 75%. -/
example : UniqueInsts exThresholdDb.root ∧ (roundTrip exEnv exThresholdDb).isOk = true ∧ tripTotal exThresholdDb.root = 100 ∧
    UniqueInsts exWeightDb.root ∧ (roundTrip exEnv exWeightDb).isOk = true ∧ tripTotal exWeightDb.root = 50 ∧ TripSize 2 exWeightDb.root := by
  refine ⟨by unfold UniqueInsts; decide +kernel, by decide +kernel, by decide +kernel, by unfold UniqueInsts; decide +kernel, by decide +kernel,
    by decide +kernel, by decide +kernel, by decide +kernel⟩

/-- A database with two cover-instances and a covergroup without: names, figures and entries after the trip. -/
example : (allCovergroups exXmlDb.root).map (fun g => ((tripLine g).name, (tripLine g).coverage, (tripLine g).covergroups.map (fun c => (c.name, c.coverage)))) =
    [("cg", 200 / 3, [("i1", 200 / 3), ("i2", 100)]), ("flat", 100, [("flat", 100)])] := by decide +kernel

/-! ## C34, exactly -/

namespace Xml

theorem kind_split {l : List Item} (h : ∀ b ∈ l, IsKind b.kind) (n : String) :
    ((l.filter (fun b => b.name = n)).map (·.count)).sum
      = ((l.filter (fun b => b.name = n ∧ b.kind = CT.CVGBIN)).map (·.count)).sum
        + ((l.filter (fun b => b.name = n ∧ b.kind = CT.IGNOREBIN)).map (·.count)).sum
        + ((l.filter (fun b => b.name = n ∧ b.kind = CT.ILLEGALBIN)).map (·.count)).sum := by
  induction l with
  | nil => simp
  | cons a t ih =>
    have iht := ih (fun b hb => h b (List.mem_cons_of_mem _ hb))
    have d1 : ¬ CT.CVGBIN = CT.IGNOREBIN := by decide
    have d2 : ¬ CT.CVGBIN = CT.ILLEGALBIN := by decide
    have d3 : ¬ CT.IGNOREBIN = CT.ILLEGALBIN := by decide
    have d1' : ¬ CT.IGNOREBIN = CT.CVGBIN := by decide
    have d2' : ¬ CT.ILLEGALBIN = CT.CVGBIN := by decide
    have d3' : ¬ CT.ILLEGALBIN = CT.IGNOREBIN := by decide
    simp only [List.filter_cons]
    by_cases hn : a.name = n
    · rcases h a List.mem_cons_self with hk | hk | hk
      all_goals
        simp only [hn, hk, d1, d2, d3, d1', d2', d3', and_self, and_false, decide_true, decide_false, if_true, List.map_cons, List.sum_cons,
          Bool.false_eq_true, if_false]
        omega
    · simp only [hn, false_and, decide_false, Bool.false_eq_true, if_false]
      exact iht

end Xml

/-- C34, exactly: at type level a bin has the kind of the first bin of its name in the cover-instances.  The counts are right for each kind
separately if and only if the counts under every other kind add up to 0. -/
theorem C34_kinds_exact {flt : FloatText} {doc : Elem} {db : Database} (h : Xml.read flt doc = .ok db) {i g c : Scope}
    (hi : i ∈ kids ST.INSTANCE db.root) (hg : g ∈ kids ST.COVERGROUP i) (hc : c ∈ kids ST.COVERPOINT g) :
    (∀ b ∈ c.items, ((instBins ST.COVERPOINT g c.name).filter (fun a => a.name = b.name)).head?.map (·.kind) = some b.kind) ∧
    ((∀ n k, ((c.items.filter (fun b => b.name = n ∧ b.kind = k)).map (·.count)).sum
        = (((instBins ST.COVERPOINT g c.name).filter (fun b => b.name = n ∧ b.kind = k)).map (·.count)).sum) ↔
      ∀ n k, ((instBins ST.COVERPOINT g c.name).filter (fun a => a.name = n)).head?.map (·.kind) ≠ some k →
        (((instBins ST.COVERPOINT g c.name).filter (fun b => b.name = n ∧ b.kind = k)).map (·.count)).sum = 0) := by
  obtain ⟨t, es, _, hgood, rfl⟩ := read_group h hi hg
  have hps : ∀ p ∈ es.map dInst, KindsOk p := by
    intro p hp
    obtain ⟨e, he, rfl⟩ := List.mem_map.1 hp
    exact kindsOk_dInst (hgood e he).1
  have hkk : kids ST.COVERPOINT (buildGroup t (es.map dInst)) = _ := buildGroup_cps t _
  rw [hkk] at hc
  obtain ⟨m, hm, rfl⟩ := List.mem_map.1 hc
  rw [show (mkCoverpoint m SrcInfo.none 1 (typeBins (cpBins (es.map dInst) m))).name = m from rfl, instBins_cp hps]
  have hl : ∀ b ∈ cpBins (es.map dInst) m, IsKind b.kind := by
    intro b hb
    unfold cpBins at hb
    obtain ⟨c, hc, hb⟩ := List.mem_flatMap.1 hb
    obtain ⟨p, hp, hc⟩ := List.mem_flatMap.1 (List.mem_filter.1 hc).1
    exact (hps p hp).1 c hc b hb
  show (∀ b ∈ typeBins (cpBins (es.map dInst) m), _) ∧ ((∀ n k, (((typeBins (cpBins (es.map dInst) m)).filter _).map _).sum = _) ↔ _)
  generalize cpBins (es.map dInst) m = l at hl
  have hhead : ∀ n, n ∈ l.map (·.name) →
      (l.filter (fun i => i.name = n)).head?.map (·.kind) = some (((l.filter (fun i => i.name = n)).head?.map (·.kind)).getD 0) := by
    intro n hn
    obtain ⟨a, ha, rfl⟩ := List.mem_map.1 hn
    cases hf : l.filter (fun i => i.name = a.name) with
    | nil =>
      rw [List.filter_eq_nil_iff] at hf
      exact absurd (decide_eq_true rfl) (hf a ha)
    | cons b t => rfl
  have hfilt : ∀ n k, (typeBins l).filter (fun b => decide (b.name = n ∧ b.kind = k))
      = if n ∈ l.map (·.name) ∧ ((l.filter (fun i => i.name = n)).head?.map (·.kind)).getD 0 = k
        then [mkBin n k 1 (((l.filter (fun i => i.name = n)).map (·.count)).sum)] else [] := by
    intro n k
    unfold typeBins
    rw [filter_map_mkBin (firstSeen_nodup _) (fun b => ((l.filter (fun i => i.name = b)).head?.map (·.kind)).getD 0)
      (fun b => ((l.filter (fun i => i.name = b)).map (·.count)).sum)]
    simp only [mem_firstSeen]
  have hno : ∀ n k, n ∉ l.map (·.name) → l.filter (fun b => decide (b.name = n ∧ b.kind = k)) = [] := by
    intro n k hn
    rw [List.filter_eq_nil_iff]
    intro a ha hh
    exact hn ((of_decide_eq_true hh).1 ▸ List.mem_map_of_mem ha)
  constructor
  · intro b hb
    unfold typeBins at hb
    obtain ⟨n, hn, rfl⟩ := List.mem_map.1 hb
    exact hhead n (mem_firstSeen.1 hn)
  · simp only [hfilt]
    constructor
    · intro H n k hk
      by_cases hn : n ∈ l.map (·.name)
      · have := H n k
        rw [if_neg (fun hh => hk (by rw [hhead n hn, hh.2]))] at this
        exact this.symm
      · rw [hno n k hn]; rfl
    · intro H n k
      by_cases hn : n ∈ l.map (·.name)
      · by_cases hk : ((l.filter (fun i => i.name = n)).head?.map (·.kind)).getD 0 = k
        · rw [if_pos ⟨hn, hk⟩]
          have hs := kind_split hl n
          have hne : ∀ j, j ≠ k → ((l.filter (fun b => b.name = n ∧ b.kind = j)).map (·.count)).sum = 0 := fun j hj =>
            H n j (by rw [hhead n hn, hk]; exact fun e => hj (Option.some.inj e).symm)
          have hkind : IsKind k := by
            have := hhead n hn
            rw [hk] at this
            obtain ⟨b, hb, rfl⟩ := Option.map_eq_some_iff.1 this
            exact hl b (List.mem_filter.1 (List.mem_of_mem_head? hb)).1
          show ([_] : List Int).sum = _
          simp only [List.sum_cons, List.sum_nil, mkBin]
          rcases hkind with rfl | rfl | rfl
          · rw [hs, hne CT.IGNOREBIN (by decide), hne CT.ILLEGALBIN (by decide)]; omega
          · rw [hs, hne CT.CVGBIN (by decide), hne CT.ILLEGALBIN (by decide)]; omega
          · rw [hs, hne CT.CVGBIN (by decide), hne CT.IGNOREBIN (by decide)]; omega
        · rw [if_neg (fun hh => hk hh.2)]
          exact (H n k (by rw [hhead n hn]; exact fun e => hk (Option.some.inj e))).symm
      · rw [if_neg (fun hh => hn hh.1), hno n k hn]

/-- Different kinds under one name: the second kind has hits, so that the counts are wrong. -/
example : (Xml.read fracText exMixedDoc).map (fun db => (kids ST.INSTANCE db.root).flatMap (fun i => (kids ST.COVERGROUP i).flatMap (fun g =>
      (kids ST.COVERPOINT g).map (fun c => (c.items.map (fun b => (b.name, b.kind, b.count)),
        (instBins ST.COVERPOINT g c.name).map (fun b => (b.name, b.kind, b.count)))))))
    = .ok [([("x", CT.CVGBIN, 7)], [("x", CT.CVGBIN, 3), ("x", CT.IGNOREBIN, 4)])] := by decide +kernel

end Verif
