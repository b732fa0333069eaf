import Verif.XmlThms5
import Verif.ReportThms2
import Verif.XmlUsed
import Verif.Accuracy
import Verif.PipeReport
import Verif.PipeMerge
/-!
# The report on an XML file, computed from the document

The chain of the XML reader (`xml_reader.py:60-428`) and the report builder
(`coverage_report_builder.py:19-158`): every line and every figure of the report is stated by a small
calculation on the document itself.
-/

namespace Verif
namespace Spec
open Xml (Elem)
open Report (RBin RCp RCross RCg)

/-- Percentage of ordinary bins hit at least once; 0 without ordinary bins. -/
def percentHit (l : List (String × Nat × Int)) : Rat :=
  let o := l.filter (fun b => b.2.1 = CT.CVGBIN)
  if o = [] then 0 else 100 * ((o.filter (fun b => 1 ≤ b.2.2)).length : Rat) / (o.length : Rat)

/-- Plain average; 0 for nothing. -/
def average (l : List Rat) : Rat := if l = [] then 0 else l.sum / (l.length : Rat)

/-- Bins with the same name put together: kind of the first, sum of the counts. -/
def together (l : List (String × Nat × Int)) : List (String × Nat × Int) :=
  (distinct (l.map (·.1))).map (fun n =>
    (n, (((l.filter (fun b => b.1 = n)).map (·.2.1)).head?).getD 0, ((l.filter (fun b => b.1 = n)).map (·.2.2)).sum))

/-- Coverpoints (or crosses) with the same name put together. -/
def sums (l : List (String × List (String × Nat × Int))) : List (String × List (String × Nat × Int)) :=
  (distinct (l.map (·.1))).map (fun n => (n, together ((l.filter (fun p => p.1 = n)).flatMap (·.2))))

/-- The bins of a kind as listed in a report: name, threshold 1, count. -/
def listed (k : Nat) (l : List (String × Nat × Int)) : List RBin :=
  (l.filter (fun b => b.2.1 = k)).map (fun b => ⟨b.1, 1, b.2.2⟩)

/-- Report on one coverpoint. -/
def pointLine (p : String × List (String × Nat × Int)) : RCp :=
  ⟨p.1, percentHit p.2, 1, listed CT.CVGBIN p.2, listed CT.IGNOREBIN p.2, listed CT.ILLEGALBIN p.2⟩

/-- Report on one cross. -/
def crossLine (p : String × List (String × Nat × Int)) : RCross := ⟨p.1, percentHit p.2, 1, listed CT.CVGBIN p.2⟩

/-- Report on one covergroup or cover-instance: the average over its coverpoints and crosses. -/
def groupLine (n : String) (cps crs : List (String × List (String × Nat × Int))) (sub : List RCg) : RCg :=
  ⟨n, n, average ((cps ++ crs).map (fun p => percentHit p.2)), 1, cps.map pointLine, crs.map crossLine, sub⟩

/-- Name and bins of the crosses of an entry. -/
def entryCrosses (e : String × List (String × List (String × Nat × Int)) × List (String × Option (List String) × List (String × Nat × Int))) :
    List (String × List (String × Nat × Int)) := e.2.2.map (fun x => (x.1, x.2.2))

/-- Report on a covergroup type with its entries: sums over the entries on the level of the type. -/
def typeLine (p : String × List (String ×
      List (String × List (String × Nat × Int)) × List (String × Option (List String) × List (String × Nat × Int)))) : RCg :=
  groupLine p.1 (sums (p.2.flatMap (fun e => e.2.1))) (sums (p.2.flatMap entryCrosses))
    (p.2.map (fun e => groupLine e.1 e.2.1 (entryCrosses e) []))

/-- The covergroups of a report on a document. -/
def docLines (doc : Elem) : List RCg := (docView doc).flatMap (fun i => i.2.map typeLine)

/-- The overall figure of a report on a document: the average over the covergroup types of the last
instance name. -/
def docTotal (doc : Elem) : Rat := ((docView doc).getLast?.map (fun i => average (i.2.map (fun p => (typeLine p).coverage)))).getD 0

/-- No covergroup has more than `K` coverpoints and crosses, and no instance more than `K` covergroups. -/
structure DocSize (K : Nat) (doc : Elem) : Prop where
  groups : ∀ i ∈ docView doc, i.2.length ≤ K
  parts : ∀ l ∈ docLines doc, ∀ g ∈ l :: l.covergroups, g.coverpoints.length + g.crosses.length ≤ K

end Spec

namespace Xml
open Spec Report

theorem maskHit_kind {k j : Nat} (hk : IsKind k) (hj : j ∈ [CT.CVGBIN, CT.IGNOREBIN, CT.ILLEGALBIN]) :
    maskHit k j = decide (k = j) := by
  simp only [List.mem_cons, List.not_mem_nil, or_false] at hj
  rcases hk with rfl | rfl | rfl <;> rcases hj with rfl | rfl | rfl <;> decide

theorem items_listed {s : Scope} {l : List (String × Nat × Int)} (hs : s.items = l.map itemOf) (h : ∀ v ∈ l, IsKind v.2.1)
    {j : Nat} (hj : j ∈ [CT.CVGBIN, CT.IGNOREBIN, CT.ILLEGALBIN]) :
    itemsOfKind j s = (l.filter (fun b => b.2.1 = j)).map itemOf := by
  unfold itemsOfKind
  rw [hs, List.filter_map]
  congr 1
  apply List.filter_congr
  intro v hv
  exact maskHit_kind (h v hv) hj

theorem leaf_doc {s : Scope} {l : List (String × Nat × Int)} (hs : s.items = l.map itemOf) (h : ∀ v ∈ l, IsKind v.2.1) :
    hitShare s = percentHit l := by
  unfold hitShare percentHit numBins numReached
  rw [items_listed hs h (by simp)]
  simp only [List.length_map, List.countP_map, List.length_eq_zero_iff]
  rw [List.countP_eq_length_filter]
  congr 5
  apply List.filter_congr
  intro v _
  simp [reached, itemOf, mkBin]

theorem pCp_doc {n : String} {l : List (String × Nat × Int)} (h : ∀ v ∈ l, IsKind v.2.1) :
    Report.pCp id (mkCoverpoint n SrcInfo.none 1 (l.map itemOf)) = pointLine (n, l) := by
  have hs : (mkCoverpoint n SrcInfo.none 1 (l.map itemOf)).items = l.map itemOf := rfl
  unfold Report.pCp pointLine listed
  rw [leafCov_id, leaf_doc hs h, items_listed hs h (by simp), items_listed hs h (by simp), items_listed hs h (by simp)]
  simp only [List.map_map]
  rfl

theorem pCross_doc {n : String} {xs : List String} {l : List (String × Nat × Int)} (h : ∀ v ∈ l, IsKind v.2.1) :
    pCross id (mkCross n SrcInfo.none 1 xs (l.map itemOf)) = crossLine (n, l) := by
  have hs : (mkCross n SrcInfo.none 1 xs (l.map itemOf)).items = l.map itemOf := rfl
  unfold pCross crossLine listed
  rw [leafCov_id, leaf_doc hs h, items_listed hs h (by simp)]
  simp only [List.map_map]
  rfl

/-- Figure of a group whose coverpoints and crosses are given by lists. -/
theorem groupCov_doc {s : Scope} {cps crs : List (String × List (String × Nat × Int))}
    (h1 : (kids ST.COVERPOINT s).map (Report.pCp id) = cps.map pointLine) (h2 : (kids ST.CROSS s).map (pCross id) = crs.map crossLine) :
    groupCov id s = average ((cps ++ crs).map (fun p => percentHit p.2)) := by
  unfold groupCov groupCoverage
  rw [h1, h2]
  simp only [List.map_map, acc_id, accCross_id, id, wsum, average]
  have e1 : ∀ l : List (String × List (String × Nat × Int)),
      (l.map ((fun cw : Rat × Int => if 0 < cw.2 then cw.1 * (cw.2 : Rat) else 0) ∘ (fun c : RCp => (c.coverage, c.weight)) ∘ pointLine)).sum
      = (l.map (fun p => percentHit p.2)).sum := by
    intro l
    congr 1
    apply List.map_congr_left
    intro p _
    simp [pointLine]
  have e2 : ∀ l : List (String × List (String × Nat × Int)),
      (l.map ((fun cw : Rat × Int => cw.1 * (cw.2 : Rat)) ∘ (fun c : RCross => (c.coverage, c.weight)) ∘ crossLine)).sum
      = (l.map (fun p => percentHit p.2)).sum := by
    intro l
    congr 1
    apply List.map_congr_left
    intro p _
    simp [crossLine]
  have e3 : ∀ l : List (String × List (String × Nat × Int)),
      (l.map ((fun x : Rat × Int => x.2) ∘ (fun c : RCp => (c.coverage, c.weight)) ∘ pointLine)).sum = (l.length : Int) := by
    intro l
    induction l with
    | nil => rfl
    | cons a t ih => simp only [List.map_cons, List.sum_cons, ih, List.length_cons]; simp [pointLine]; omega
  have e4 : ∀ l : List (String × List (String × Nat × Int)),
      (l.map ((fun x : Rat × Int => x.2) ∘ (fun c : RCross => (c.coverage, c.weight)) ∘ crossLine)).sum = (l.length : Int) := by
    intro l
    induction l with
    | nil => rfl
    | cons a t ih => simp only [List.map_cons, List.sum_cons, ih, List.length_cons]; simp [crossLine]; omega
  rw [e1, e2, e3, e4]
  simp only [zero_add]
  rw [List.map_append, List.sum_append]
  by_cases hz : cps ++ crs = []
  · obtain ⟨rfl, rfl⟩ := List.append_eq_nil_iff.1 hz
    simp
  · have hpos : 0 < (cps ++ crs).length := List.length_pos_of_ne_nil hz
    rw [List.length_append] at hpos
    have hne : ¬ (cps.map (fun p => percentHit p.2) ++ crs.map (fun p => percentHit p.2) = []) := by
      rw [← List.map_append]
      intro hc
      exact hz (List.map_eq_nil_iff.1 hc)
    rw [if_pos (by omega), if_neg hne]
    simp

theorem pCg_doc {s : Scope} {cps crs : List (String × List (String × Nat × Int))} {sub : List RCg} (hw : s.weight = 1)
    (h1 : (kids ST.COVERPOINT s).map (Report.pCp id) = cps.map pointLine) (h2 : (kids ST.CROSS s).map (pCross id) = crs.map crossLine)
    (h3 : (kids ST.COVERINSTANCE s).map (pCg id) = sub) : pCg id s = groupLine s.name cps crs sub := by
  rw [pCg_eq, groupCov_doc h1 h2, h1, h2, h3, hw]
  rfl

theorem entry_doc {g : Elem} (h : GoodGroup g) :
    pCg id (dInst g).scope = groupLine (cpName g) (cpsOf g) (entryCrosses (cpName g, cpsOf g, docCrosses g)) [] := by
  refine pCg_doc (s := (dInst g).scope) rfl ?_ ?_ ?_
  · rw [kids_inst_cp]
    simp only [dInst, List.map_map, cpsOf]
    apply List.map_congr_left
    intro p hp
    show Report.pCp id (mkCoverpoint (cpName p) SrcInfo.none 1 ((within "coverpointBin" p).map (fun b => itemOf (binOf b)))) = _
    rw [show (within "coverpointBin" p).map (fun b => itemOf (binOf b)) = ((within "coverpointBin" p).map binOf).map itemOf by
      rw [List.map_map]; rfl]
    refine pCp_doc ?_
    intro v hv
    obtain ⟨b, hb, rfl⟩ := List.mem_map.1 hv
    exact kind_binOf (h.1 p hp b hb)
  · rw [kids_inst_cross]
    simp only [dInst, List.map_map, docCrosses, entryCrosses]
    apply List.map_congr_left
    intro x _
    show pCross id (mkCross (cpName x) SrcInfo.none 1 _ ((within "crossBin" x).map (fun b => itemOf (crossBinOf b)))) = _
    rw [show (within "crossBin" x).map (fun b => itemOf (crossBinOf b)) = ((within "crossBin" x).map crossBinOf).map itemOf by
      rw [List.map_map]; rfl]
    refine pCross_doc ?_
    intro v hv
    obtain ⟨b, _, rfl⟩ := List.mem_map.1 hv
    exact kind_crossBinOf b
  · rw [kids_inst_inst]; rfl

theorem together_kind {l : List (String × Nat × Int)} (h : ∀ v ∈ l, IsKind v.2.1) : ∀ v ∈ together l, IsKind v.2.1 := by
  intro v hv
  obtain ⟨n, hn, rfl⟩ := List.mem_map.1 hv
  rw [distinct_eq, mem_firstSeen] at hn
  obtain ⟨b, hb, rfl⟩ := List.mem_map.1 hn
  simp only
  cases hf : l.filter (fun x => x.1 = b.1) with
  | nil =>
    rw [List.filter_eq_nil_iff] at hf
    exact absurd (decide_eq_true rfl) (hf b hb)
  | cons a t =>
    have : a ∈ l.filter (fun x => x.1 = b.1) := by rw [hf]; exact List.mem_cons_self
    simpa using h a (List.mem_filter.1 this).1

theorem filter_itemOf (l : List (String × Nat × Int)) (n : String) :
    (l.map itemOf).filter (fun i => i.name = n) = (l.filter (fun b => b.1 = n)).map itemOf := by
  rw [List.filter_map]; rfl

theorem typeBins_doc (l : List (String × Nat × Int)) : typeBins (l.map itemOf) = (together l).map itemOf := by
  unfold typeBins together
  rw [List.map_map, List.map_map, distinct_eq]
  apply List.map_congr_left
  intro n _
  simp only [Function.comp, filter_itemOf, List.map_map, List.head?_map, Option.map_map, itemOf]
  rfl

theorem typeCrossBins_doc {l : List (String × Nat × Int)} (h : ∀ v ∈ l, v.2.1 = CT.CVGBIN) :
    typeCrossBins (l.map itemOf) = (together l).map itemOf := by
  rw [← typeBins_doc]
  unfold typeBins typeCrossBins
  apply List.map_congr_left
  intro n hn
  rw [mem_firstSeen, List.map_map] at hn
  obtain ⟨b, hb, rfl⟩ := List.mem_map.1 hn
  rw [filter_itemOf]
  cases hf : l.filter (fun x => x.1 = ((fun i : Item => i.name) ∘ itemOf) b) with
  | nil =>
    rw [List.filter_eq_nil_iff] at hf
    exact absurd (decide_eq_true rfl) (hf b hb)
  | cons a t =>
    have : a ∈ l.filter (fun x => x.1 = ((fun i : Item => i.name) ∘ itemOf) b) := by rw [hf]; exact List.mem_cons_self
    have := h a (List.mem_filter.1 this).1
    simp [itemOf, mkBin, this]

theorem cpBins_doc (es : List Elem) (n : String) :
    cpBins (es.map dInst) n = (((es.flatMap cpsOf).filter (fun p => p.1 = n)).flatMap (·.2)).map itemOf := by
  unfold cpBins
  have h1 : (es.map dInst).flatMap (·.cps) = (es.flatMap (within "coverpoint")).map dCp := by
    rw [List.flatMap_map, List.map_flatMap]; rfl
  have h2 : es.flatMap cpsOf = (es.flatMap (within "coverpoint")).map (fun p => (cpName p, (within "coverpointBin" p).map binOf)) := by
    rw [List.map_flatMap]; rfl
  rw [h1, h2, List.filter_map, List.filter_map, List.flatMap_map, List.flatMap_map, List.map_flatMap]
  apply List.flatMap_congr
  intro p _
  simp only [dCp, List.map_map]
  rfl

theorem crBins_doc (es : List Elem) (n : String) :
    crBins (es.map dInst) n
      = (((es.flatMap (fun g => entryCrosses (cpName g, cpsOf g, docCrosses g))).filter (fun p => p.1 = n)).flatMap (·.2)).map itemOf := by
  unfold crBins
  have h1 : (es.map dInst).flatMap (·.crs) = (es.flatMap (within "cross")).map dCr := by
    rw [List.flatMap_map, List.map_flatMap]; rfl
  have h2 : es.flatMap (fun g => entryCrosses (cpName g, cpsOf g, docCrosses g))
      = (es.flatMap (within "cross")).map (fun p => (cpName p, (within "crossBin" p).map crossBinOf)) := by
    rw [List.map_flatMap]
    apply List.flatMap_congr
    intro g _
    simp only [entryCrosses, docCrosses, List.map_map]
    rfl
  rw [h1, h2, List.filter_map, List.filter_map, List.flatMap_map, List.flatMap_map, List.map_flatMap]
  apply List.flatMap_congr
  intro p _
  simp only [dCr, List.map_map]
  rfl

/-- One covergroup type of a document. -/
theorem type_doc {t : String} {es : List Elem} (h : ∀ g ∈ es, GoodGroup g) :
    pCg id (buildGroup t (es.map dInst)) = typeLine (t, es.map (fun g => (cpName g, cpsOf g, docCrosses g))) := by
  unfold typeLine
  refine pCg_doc (s := buildGroup t (es.map dInst)) rfl ?_ ?_ ?_
  · have hk : kids ST.COVERPOINT (buildGroup t (es.map dInst)) = _ := buildGroup_cps t _
    rw [hk, List.map_map, sums, List.map_map, distinct_eq]
    have hn : ((es.map dInst).flatMap (·.cps)).map (·.name) = ((es.map (fun g => (cpName g, cpsOf g, docCrosses g))).flatMap
        (fun e => e.2.1)).map (·.1) := by
      rw [List.flatMap_map, List.flatMap_map, List.map_flatMap, List.map_flatMap]
      apply List.flatMap_congr
      intro g _
      simp only [dInst, cpsOf, List.map_map]
      rfl
    rw [hn]
    apply List.map_congr_left
    intro n _
    simp only [Function.comp]
    rw [cpBins_doc, typeBins_doc, List.flatMap_map]
    refine pCp_doc (together_kind ?_)
    intro v hv
    obtain ⟨p, hp, hv⟩ := List.mem_flatMap.1 hv
    obtain ⟨g, hg, hp⟩ := List.mem_flatMap.1 (List.mem_filter.1 hp).1
    obtain ⟨x, hx, rfl⟩ := List.mem_map.1 hp
    obtain ⟨b, hb, rfl⟩ := List.mem_map.1 hv
    exact kind_binOf ((h g hg).1 x hx b hb)
  · have hk : kids ST.CROSS (buildGroup t (es.map dInst)) = _ := buildGroup_crosses t _
    rw [hk, List.map_map, sums, List.map_map, distinct_eq]
    have hn : ((es.map dInst).flatMap (·.crs)).map (·.name) = ((es.map (fun g => (cpName g, cpsOf g, docCrosses g))).flatMap
        entryCrosses).map (·.1) := by
      rw [List.flatMap_map, List.flatMap_map, List.map_flatMap, List.map_flatMap]
      apply List.flatMap_congr
      intro g _
      simp only [dInst, entryCrosses, docCrosses, List.map_map]
      rfl
    rw [hn]
    apply List.map_congr_left
    intro n _
    simp only [Function.comp]
    have hkind : ∀ v ∈ ((es.flatMap (fun g => entryCrosses (cpName g, cpsOf g, docCrosses g))).filter (fun p => p.1 = n)).flatMap (·.2),
        v.2.1 = CT.CVGBIN := by
      intro v hv
      obtain ⟨p, hp, hv⟩ := List.mem_flatMap.1 hv
      obtain ⟨g, hg, hp⟩ := List.mem_flatMap.1 (List.mem_filter.1 hp).1
      obtain ⟨x, hx, rfl⟩ := List.mem_map.1 hp
      obtain ⟨y, hy, rfl⟩ := List.mem_map.1 hx
      obtain ⟨b, hb, rfl⟩ := List.mem_map.1 hv
      rfl
    rw [crBins_doc, typeCrossBins_doc hkind, List.flatMap_map]
    refine pCross_doc (together_kind ?_)
    intro v hv
    exact .inl (hkind v hv)
  · have hk : kids ST.COVERINSTANCE (buildGroup t (es.map dInst)) = _ := buildGroup_insts t _
    rw [hk, List.map_map, List.map_map, List.map_map]
    apply List.map_congr_left
    intro g hg
    exact entry_doc (h g hg)

/-- Instances of a database read from a document, as report lines. -/
theorem insts_doc {flt : FloatText} {doc : Elem} {db : Database} (h : Xml.read flt doc = .ok db) :
    (kids ST.INSTANCE db.root).map (fun i => (kids ST.COVERGROUP i).map (pCg id)) = (docView doc).map (fun i => i.2.map typeLine) := by
  have hgood := ((C37_read_accepts flt doc).1 ⟨db, h⟩).2.2
  have h1 : (kids ST.INSTANCE db.root).map (fun i => (kids ST.COVERGROUP i).map (pCg id))
      = ((kids ST.INSTANCE db.root).map (fun s => (s.name, s.children))).map
          (fun p => (p.2.filter (fun c => maskHit c.stype ST.COVERGROUP)).map (pCg id)) := by
    rw [List.map_map]; rfl
  rw [h1, read_insts h, List.map_map]
  unfold docView
  rw [List.map_map]
  apply List.map_congr_left
  intro n _
  simp only [Function.comp]
  rw [List.filter_eq_self.2 ?_]
  · rw [List.map_flatMap, List.map_flatMap]
    apply List.flatMap_congr
    intro i hi
    have hgi := hgood i (List.mem_filter.1 hi).1
    rw [List.map_flatMap, List.map_flatMap]
    apply List.flatMap_congr
    intro c hc
    unfold dCgs
    rw [List.map_map, List.map_map]
    apply List.map_congr_left
    intro t _
    exact type_doc (fun g hg => hgi.2.2 c hc g (List.mem_filter.1 hg).1)
  · intro g hg
    obtain ⟨i, _, hg⟩ := List.mem_flatMap.1 hg
    obtain ⟨c, _, hg⟩ := List.mem_flatMap.1 hg
    exact dCgs_type c g hg

theorem instCov_doc {flt : FloatText} {doc : Elem} {db : Database} (h : Xml.read flt doc = .ok db) {i : Scope}
    (hi : i ∈ kids ST.INSTANCE db.root) : instCov id i = average (((kids ST.COVERGROUP i).map (pCg id)).map (·.coverage)) := by
  have hw : ∀ g ∈ kids ST.COVERGROUP i, g.weight = 1 := by
    intro g hg
    obtain ⟨t, es, _, _, rfl⟩ := read_group h hi hg
    rfl
  rw [instCov_id i (fun g hg => by rw [hw g hg]; decide)]
  have h1 : (kids ST.COVERGROUP i).map (fun g => groupCov id g * (g.weight : Rat)) = ((kids ST.COVERGROUP i).map (pCg id)).map (·.coverage) := by
    rw [List.map_map]
    apply List.map_congr_left
    intro g hg
    simp only [Function.comp]
    rw [pCg_eq, hw g hg]
    simp
  have h2 : weightSum (kids ST.COVERGROUP i) = (((kids ST.COVERGROUP i).map (pCg id)).map (·.coverage)).length := by
    unfold weightSum
    rw [show (kids ST.COVERGROUP i).map (·.weight) = (kids ST.COVERGROUP i).map (fun _ => (1 : Int)) from List.map_congr_left hw]
    simp
  rw [h1, h2]
  unfold average
  split
  · rename_i hz; rw [hz]; simp
  · simp

/-- C112: the report on a document. -/
theorem C112_report {flt : FloatText} {doc : Elem} {db : Database} {r : Rpt} (h : Xml.read flt doc = .ok db)
    (hr : build id db.root = .ok r) : r.covergroups = docLines doc ∧ r.coverage = docTotal doc := by
  obtain ⟨_, rfl⟩ := (build_ok id db.root r).1 hr
  have hi := insts_doc h
  constructor
  · show (allCovergroups db.root).map (pCg id) = _
    unfold allCovergroups docLines
    rw [List.map_flatMap, List.flatMap_def, List.flatMap_def, hi]
  · show (((kids ST.INSTANCE db.root).getLast?).map (instCov id)).getD 0 = _
    have e : (kids ST.INSTANCE db.root).getLast?.map (instCov id)
        = ((kids ST.INSTANCE db.root).map (fun i => (kids ST.COVERGROUP i).map (pCg id))).getLast?.map
            (fun l => average (l.map (·.coverage))) := by
      rw [List.getLast?_map, Option.map_map]
      cases hl : (kids ST.INSTANCE db.root).getLast? with
      | none => rfl
      | some i => exact congrArg some (instCov_doc h (List.mem_of_getLast? hl))
    rw [e, hi, List.getLast?_map, Option.map_map]
    unfold docTotal
    congr 2
    funext i
    simp only [Function.comp, List.map_map]
    rfl

/-- C112: a report on a document that can be read is made exactly when every instance name has a
covergroup. -/
theorem C112_made {flt : FloatText} {doc : Elem} {db : Database} (h : Xml.read flt doc = .ok db) :
    (∃ r, build id db.root = .ok r) ↔ ∀ i ∈ docView doc, i.2 ≠ [] := by
  rw [C70_report_of_read h id]
  have hi := insts_doc h
  have h1 : (∀ i ∈ kids ST.INSTANCE db.root, kids ST.COVERGROUP i ≠ [])
      ↔ ∀ l ∈ (kids ST.INSTANCE db.root).map (fun i => (kids ST.COVERGROUP i).map (pCg id)), l ≠ [] := by
    simp
  rw [h1, hi]
  simp only [List.forall_mem_map, ne_eq, List.map_eq_nil_iff]

namespace Ex

def figInst (n : String) (bins : List (String × String × String)) (c : String) : Elem :=
  ⟨"cgInstance", [("name", n)], none, [⟨"cgId", [("cgName", "cg")], none, []⟩,
    ⟨"coverpoint", [("name", "cp")], none, bins.map (fun b =>
      ⟨"coverpointBin", [("name", b.1), ("type", b.2.1)], none, [⟨"range", [], none, [usedContents b.2.2]⟩]⟩)⟩,
    ⟨"cross", [("name", "cr")], none, [⟨"crossExpr", [], some "cp", []⟩, ⟨"crossBin", [("name", "<a>")], none, [usedContents c]⟩]⟩]⟩

/-- Two entries of one covergroup type: each hits another bin of the coverpoint, none hits the cross. -/
def figDoc : Elem := ⟨"UCIS", [], none, [⟨"instanceCoverages", [("name", "i")], none, [
  ⟨"covergroupCoverage", [], none, [figInst "e1" [("a", "bins", "3"), ("b", "bins", "0"), ("z", "ignore", "1")] "0",
    figInst "e2" [("b", "bins", "1"), ("c", "bins", "0")] "0"]⟩]⟩]⟩

theorem fig_lines : (docLines figDoc).map (fun l => (l.name, l.coverage, l.coverpoints.map (·.coverage), l.covergroups.map (·.coverage)))
    = [("cg", 100 / 3, [200 / 3], [25, 25])] ∧ docTotal figDoc = 100 / 3 := by decide +kernel

theorem fig_read : (match Xml.read usedFlt figDoc with
    | .ok db => (match build id db.root with
      | .ok r => decide (r.coverage = 100 / 3)
      | .error _ => false)
    | .error _ => false) = true := by decide +kernel
end Ex

example : ∃ db r, Xml.read Ex.usedFlt Ex.figDoc = .ok db ∧ build id db.root = .ok r ∧ r.coverage = 100 / 3 := by
  have h := Ex.fig_read
  cases h1 : Xml.read Ex.usedFlt Ex.figDoc with
  | error e => rw [h1] at h; cases h
  | ok db =>
    rw [h1] at h
    simp only at h
    cases h2 : build id db.root with
    | error e => rw [h2] at h; cases h
    | ok r =>
      rw [h2] at h
      exact ⟨db, r, rfl, h2, of_decide_eq_true h⟩

example : DocSize 2 Ex.figDoc := by constructor <;> decide +kernel

/-! ## Binary64 -/

theorem weights_doc {flt : FloatText} {doc : Elem} {db : Database} (h : Xml.read flt doc = .ok db) {i : Scope}
    (hi : i ∈ kids ST.INSTANCE db.root) : weightSum (kids ST.COVERGROUP i) = (kids ST.COVERGROUP i).length := by
  have hw : ∀ g ∈ kids ST.COVERGROUP i, g.weight = 1 := by
    intro g hg
    obtain ⟨t, es, _, _, rfl⟩ := read_group h hi hg
    rfl
  unfold weightSum
  rw [show (kids ST.COVERGROUP i).map (·.weight) = (kids ST.COVERGROUP i).map (fun _ => (1 : Int)) from List.map_congr_left hw]
  simp

theorem reported_doc {flt : FloatText} {doc : Elem} {db : Database} (h : Xml.read flt doc = .ok db) {g : Scope}
    (hg : g ∈ reportedGroups db.root) :
    (∀ c ∈ kids ST.COVERPOINT g, c.weight = 1) ∧ ∃ l ∈ docLines doc, pCg id g ∈ l :: l.covergroups := by
  obtain ⟨s, hs, hg⟩ := List.mem_flatMap.1 hg
  obtain ⟨i, hi, hs'⟩ := List.mem_flatMap.1 hs
  obtain ⟨t, es, _, _, rfl⟩ := read_group h hi hs'
  refine ⟨fun c hc => ((unit_buildGroup hg).1 c hc).1, ?_⟩
  have hl : pCg id (buildGroup t (es.map dInst)) ∈ docLines doc := by
    have hd := insts_doc h
    have : (kids ST.COVERGROUP i).map (pCg id) ∈ (docView doc).map (fun i => i.2.map typeLine) := by
      rw [← hd]; exact List.mem_map_of_mem (f := fun i => (kids ST.COVERGROUP i).map (pCg id)) hi
    obtain ⟨j, hj, he⟩ := List.mem_map.1 this
    refine List.mem_flatMap.2 ⟨j, hj, ?_⟩
    rw [he]
    exact List.mem_map_of_mem hs'
  refine ⟨_, hl, ?_⟩
  rw [groupTree_mem] at hg
  rcases hg with rfl | ⟨c, hc, hg⟩
  · exact List.mem_cons_self
  · have hc' := hc
    have hk : kids ST.COVERINSTANCE (buildGroup t (es.map dInst)) = _ := buildGroup_insts t _
    rw [hk] at hc
    obtain ⟨p, _, rfl⟩ := List.mem_map.1 hc
    rw [groupTree_mem] at hg
    rcases hg with rfl | ⟨c, hc, _⟩
    · refine List.mem_cons_of_mem _ ?_
      rw [pCg_eq id (buildGroup t (es.map dInst))]
      exact List.mem_map_of_mem hc'
    · rw [kids_inst_inst] at hc; cases hc

theorem size_doc {flt : FloatText} {doc : Elem} {db : Database} (h : Xml.read flt doc = .ok db) {K : Nat} (hK : K ≤ 2 ^ 50)
    (hs : DocSize K doc) : NonNegWeights db.root ∧ SizeLimit K (2 ^ 53) db.root := by
  have hp : ∀ g ∈ reportedGroups db.root, numParts g ≤ K := by
    intro g hg
    obtain ⟨_, l, hl, hm⟩ := reported_doc h hg
    have := hs.parts l hl _ hm
    rw [pCg_eq] at this
    simpa [numParts] using this
  have hgr : ∀ i ∈ kids ST.INSTANCE db.root, (kids ST.COVERGROUP i).length ≤ K := by
    intro i hi
    have hd := insts_doc h
    have : (kids ST.COVERGROUP i).map (pCg id) ∈ (docView doc).map (fun i => i.2.map typeLine) := by
      rw [← hd]; exact List.mem_map_of_mem (f := fun i => (kids ST.COVERGROUP i).map (pCg id)) hi
    obtain ⟨j, hj, he⟩ := List.mem_map.1 this
    have h1 := hs.groups j hj
    have h2 := congrArg List.length he
    simp only [List.length_map] at h2
    omega
  have hw : ∀ g ∈ reportedGroups db.root, groupWeight g = numParts g := by
    intro g hg
    have h1 := (reported_doc h hg).1
    unfold groupWeight numParts weightSum
    rw [show (kids ST.COVERPOINT g).map (·.weight) = (kids ST.COVERPOINT g).map (fun _ => (1 : Int)) from List.map_congr_left h1]
    simp
  refine ⟨⟨fun g hg => ?_, fun g hg c hc => ?_⟩, hp, hgr, fun g hg => ?_, fun i hi => ?_⟩
  · obtain ⟨i, hi, hg⟩ := List.mem_flatMap.1 hg
    obtain ⟨t, es, _, _, rfl⟩ := read_group h hi hg
    show (0 : Int) ≤ 1
    decide
  · rw [(reported_doc h hg).1 c hc]; decide
  · rw [hw g hg]; have := hp g hg; omega
  · rw [weights_doc h hi]; have := hgr i hi; omega

/-- C112 in binary64: the figures of the report on a document differ from those computed from the
document by at most `200 (2K + 5) / 2^53` percent. -/
theorem C112_binary64 {flt : FloatText} {doc : Elem} {db : Database} {r : Rpt} (h : Xml.read flt doc = .ok db) {K : Nat}
    (hK : K ≤ 2 ^ 50) (hs : DocSize K doc) (hr : build round64 db.root = .ok r) :
    CloseReports (200 * (2 * (K : Rat) + 5) / 2 ^ 53) r ⟨docLines doc, [], docTotal doc⟩ := by
  obtain ⟨hw, hl⟩ := size_doc h hK hs
  obtain ⟨r0, h0, hc⟩ := (C86_accuracy hK hw hl).2 r hr
  obtain ⟨e1, e2⟩ := C112_report h h0
  unfold CloseReports at hc ⊢
  rw [e1, e2] at hc
  exact hc

end Xml

namespace Tools
open Report

/-- C112 for the report command with its default formats, in exact arithmetic: the text written is
the outline of the figures computed from the document in the input file. -/
theorem C112_report_command {x : Ext} (hx : x.rd = id) {a : ReportArgs} {w w' : World} (hi : a.inputFormat.getD "xml" = "xml")
    (hf : a.outputFormat.getD "txt" = "txt") (h : ucisReport x a w = (.ok (), w')) :
    ∃ doc r, Spec.Holds x (w.files a.db) doc ∧ r.covergroups = Verif.Spec.docLines doc ∧ r.coverage = Verif.Spec.docTotal doc ∧
      w' = Spec.Reported w a.db a.out (Spec.txtOf x r) := by
  obtain ⟨i, d, r, h1, h2, h3, _, h5⟩ := (C87_report_txt x a w w' hf).1 h
  rw [hi] at h1
  cases h1.symm.trans (registered_xml x)
  obtain ⟨doc, hd, h2⟩ := xmlRead_ok.1 h2
  rw [hx] at h3
  obtain ⟨e1, e2⟩ := Xml.C112_report (factoryRead_ok.1 h2).2 h3
  exact ⟨doc, r, hd, e1, e2, h5⟩

end Tools
end Verif
