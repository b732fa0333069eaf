import Verif.XmlFigures
import Verif.MergeStages
import Verif.PipeStages
/-!
# What a merged XML file says, in terms of the XML files merged

The chain of the XML reader (`xml_reader.py`), the merge (`db_merger.py:24-252`), the XML writer
(`xml_writer.py`), the reader again and the report builder (`coverage_report_builder.py`).
-/

namespace Verif
namespace Spec
open Xml (Elem)
open Report (RCg)

/-- What a document says: instances, covergroup types, entries with coverpoints and crosses. -/
abbrev Said := List (String × List (String × List (String ×
  List (String × List (String × Nat × Int)) × List (String × List String × List (String × Nat × Int)))))

/-- What is said in a document (the content of C69). -/
def said (doc : Elem) : Said :=
  (docView doc).map (fun i => (i.1, i.2.map (fun t => (t.1, t.2.map (fun e => (e.1, e.2.1, e.2.2.map (fun x => (x.1, x.2.1.getD [], x.2.2))))))))

/-- Things with the same name in several lists are put together; if a list has several of a name, the
last one counts. -/
def each {α β : Type} (f : List α → β) (l : List (List (String × α))) : List (String × β) :=
  (distinct (l.flatMap (fun s => s.map (·.1)))).map (fun n => (n, f (l.filterMap (fun s => (s.filter (fun p => p.1 = n)).getLast?.map (·.2)))))

/-- The same, but if a list has several of a name, all of them count. -/
def eachAll {α β : Type} (f : List α → β) (l : List (List (String × α))) : List (String × β) :=
  (distinct (l.flatMap (fun s => s.map (·.1)))).map (fun n => (n, f (l.flatMap (fun s => (s.filter (fun p => p.1 = n)).map (·.2)))))

/-- Bins with the same kind and name are added up: first the ordinary ones, then the ones to ignore,
then the illegal ones. -/
def addedBins (l : List (List (String × Nat × Int))) : List (String × Nat × Int) :=
  [CT.CVGBIN, CT.IGNOREBIN, CT.ILLEGALBIN].flatMap (fun k =>
    (distinct ((l.flatten.filter (fun b => b.2.1 = k)).map (·.1))).map (fun n =>
      (n, k, ((l.flatten.filter (fun b => b.2.1 = k ∧ b.1 = n)).map (·.2.2)).sum)))

/-- Crosses are put together like coverpoints; what is crossed is taken from the first. -/
def addedCrosses (l : List (List String × List (String × Nat × Int))) : List String × List (String × Nat × Int) :=
  ((l.head?.map (·.1)).getD [], addedBins (l.map (·.2)))

/-- What a merge of documents says. -/
def mergedSaid : List Said → Said :=
  each (each (each (fun es => (each addedBins (es.map (·.1)), eachAll addedCrosses (es.map (·.2))))))

/-- Report on what is said, as for a document (`docLines`). -/
def saidLines (v : Said) : List RCg :=
  v.flatMap (fun i => i.2.map (fun t => groupLine t.1 (sums (t.2.flatMap (fun e => e.2.1)))
    (sums (t.2.flatMap (fun e => e.2.2.map (fun x => (x.1, x.2.2)))))
    (t.2.map (fun e => groupLine e.1 e.2.1 (e.2.2.map (fun x => (x.1, x.2.2))) []))))

/-- Overall figure of what is said: the average over the covergroup types of the last instance. -/
def saidTotal (v : Said) : Rat := ((v.getLast?).map (fun i => average ((saidLines [i]).map (·.coverage)))).getD 0

end Spec

open Merge Xml Report Spec

theorem lines_said (doc : Elem) : docLines doc = saidLines (said doc) ∧ docTotal doc = saidTotal (said doc) := by
  have key : ∀ p : String × List (String × List (String × List (String × Nat × Int)) × List (String × Option (List String) × List (String × Nat × Int))),
      typeLine p = groupLine p.1 (sums ((p.2.map (fun e => (e.1, e.2.1, e.2.2.map (fun x => (x.1, x.2.1.getD [], x.2.2))))).flatMap (fun e => e.2.1)))
        (sums ((p.2.map (fun e => (e.1, e.2.1, e.2.2.map (fun x => (x.1, x.2.1.getD [], x.2.2))))).flatMap (fun e => e.2.2.map (fun x => (x.1, x.2.2)))))
        ((p.2.map (fun e => (e.1, e.2.1, e.2.2.map (fun x => (x.1, x.2.1.getD [], x.2.2))))).map
          (fun e => groupLine e.1 e.2.1 (e.2.2.map (fun x => (x.1, x.2.2))) [])) := by
    intro p
    unfold typeLine
    simp only [List.flatMap_map, List.map_map, Function.comp_def]
    rfl
  constructor
  · unfold docLines saidLines said
    rw [List.flatMap_map]
    apply List.flatMap_congr
    intro i _
    rw [List.map_map]
    exact List.map_congr_left (fun p _ => key p)
  · unfold docTotal saidTotal said saidLines
    rw [List.getLast?_map, Option.map_map]
    congr 2
    funext i
    simp only [Function.comp, List.flatMap_cons, List.flatMap_nil, List.append_nil]
    rw [List.map_map, List.map_map]
    congr 1
    apply List.map_congr_left
    intro p _
    simp only [Function.comp]
    rw [key]

/-! ## The merge in terms of views -/

theorem names_each {β : Type} {v : Scope → String × β} {m : Nat} (hname : ∀ s, (v s).1 = s.name) (l : List Scope) :
    childNames m l = distinct ((l.map (fun s => (kids m s).map v)).flatMap (fun s => s.map (·.1))) := by
  rw [distinct_eq]
  unfold childNames
  rw [List.flatMap_map]
  congr 1
  apply List.flatMap_congr
  intro s _
  rw [List.map_map]
  show (kids m s).map _ = _
  apply List.map_congr_left
  intro x _
  exact (hname x).symm

theorem childrenAt_view {β : Type} {u : Scope → β} {m : Nat} (n : String) (s : Scope) :
    (childrenAt (m, n) s).map u = (((kids m s).map (fun s => (s.name, u s))).filter (fun p => p.1 = n)).map (·.2) := by
  rw [childrenAt_kids, List.filter_map, List.map_map]
  rfl

theorem view_each {β γ : Type} {u : Scope → β} {F : List β → γ} {m : Nat} (hm : m ≠ ST.CROSS) {M : List Scope → String → Scope}
    {w : Scope → String × γ} (l : List Scope) (h : ∀ n, w (M l n) = (n, F ((pick (m, n) l).map u))) :
    ((childNames m l).map (M l)).map w = each F (l.map (fun s => (kids m s).map (fun s => (s.name, u s)))) := by
  unfold each
  rw [List.map_map, names_each (v := fun s => (s.name, u s)) (fun _ => rfl)]
  apply List.map_congr_left
  intro n _
  rw [Function.comp, h]
  unfold pick
  rw [if_neg hm, List.map_filterMap, List.filterMap_map]
  congr 3
  funext s
  simp only [Function.comp]
  rw [← List.getLast?_map, ← List.getLast?_map, childrenAt_view]

theorem view_eachAll {β γ : Type} {u : Scope → β} {F : List β → γ} {M : List Scope → String → Scope}
    {w : Scope → String × γ} (l : List Scope) (h : ∀ n, w (M l n) = (n, F ((pick (ST.CROSS, n) l).map u))) :
    ((childNames ST.CROSS l).map (M l)).map w = eachAll F (l.map (fun s => (kids ST.CROSS s).map (fun s => (s.name, u s)))) := by
  unfold eachAll
  rw [List.map_map, names_each (v := fun s => (s.name, u s)) (fun _ => rfl)]
  apply List.map_congr_left
  intro n _
  rw [Function.comp, h]
  unfold pick
  rw [if_pos rfl, List.map_flatMap, List.flatMap_map]
  congr 2
  apply List.flatMap_congr
  intro s _
  exact childrenAt_view n s

/-- Every bin seen by a merge has one of the three kinds exactly. -/
def ThreeKinds (s : Scope) : Prop := ∀ t ∈ binTriples s, IsKind t.2.1

theorem kindItems_triples {k : Nat} (hk : IsKind k) {l : List Scope} (h : ∀ s ∈ l, ThreeKinds s) :
    (kindItems l k).map (fun i => (i.name, i.kind, i.count)) = (l.map binTriples).flatten.filter (fun b => b.2.1 = k) := by
  unfold kindItems
  rw [List.map_flatMap, ← List.flatMap_def, List.filter_flatMap]
  apply List.flatMap_congr
  intro s hs
  rw [kind_triples hk]
  apply List.filter_congr
  intro t ht
  exact maskHit_kind (h s hs t ht) (by
    rcases hk with rfl | rfl | rfl <;> simp)

theorem pBins_added {l : List Scope} (h : ∀ s ∈ l, ThreeKinds s) :
    (pBins l).map (fun i => (i.name, i.kind, i.count)) = addedBins (l.map binTriples) := by
  have hk : ∀ k, IsKind k → (pBinsOfKind (kindItems l k) k).map (fun i => (i.name, i.kind, i.count))
      = (distinct (((l.map binTriples).flatten.filter (fun b => b.2.1 = k)).map (·.1))).map (fun n =>
          (n, k, (((l.map binTriples).flatten.filter (fun b => b.2.1 = k ∧ b.1 = n)).map (·.2.2)).sum)) := by
    intro k hk
    rw [pBinsOfKind_triples, kindItems_triples hk h, distinct_eq]
    unfold tBins
    apply List.map_congr_left
    intro n _
    rw [List.filter_filter]
    congr 5
    funext b
    simp [Bool.and_comm]
  unfold pBins addedBins
  simp only [List.map_append, List.flatMap_cons, List.flatMap_nil, List.append_nil]
  rw [hk _ (.inl rfl), hk _ (.inr (.inl rfl)), hk _ (.inr (.inr rfl)), List.append_assoc]

/-- All leaves of cover-instances have bins of the three kinds. -/
def Spec.KnownKinds (r : Scope) : Prop := ∀ i ∈ kids ST.INSTANCE r, ∀ g ∈ kids ST.COVERGROUP i, ∀ c ∈ kids ST.COVERINSTANCE g,
  (∀ x ∈ kids ST.COVERPOINT c, ThreeKinds x) ∧ ∀ x ∈ kids ST.CROSS c, ThreeKinds x

theorem wCi_said {n : String} {l : List Scope} (h : ∀ c ∈ l, (∀ x ∈ kids ST.COVERPOINT c, ThreeKinds x) ∧ ∀ x ∈ kids ST.CROSS c, ThreeKinds x) :
    wCi (mCi n l) = (n, (fun es : List (List (String × List (String × Nat × Int)) × List (String × List String × List (String × Nat × Int))) =>
      (each addedBins (es.map (·.1)), eachAll addedCrosses (es.map (·.2)))) (l.map (fun c => (wCi c).2))) := by
  unfold wCi
  rw [kids_mCi_cp, kids_mCi_cross]
  refine Prod.ext rfl (Prod.ext ?_ ?_)
  · simp only
    unfold pCoverpoints
    rw [view_each (u := binTriples) (F := addedBins) (m := ST.COVERPOINT) (by decide) (M := pCoverpoint) (w := wCp) l]
    · rw [List.map_map]; rfl
    · intro k
      rw [pCoverpoint_eq]
      unfold wCp
      rw [show binTriples (mCp k (pick (ST.COVERPOINT, k) l)) = (pBins (pick (ST.COVERPOINT, k) l)).map (fun i => (i.name, i.kind, i.count)) by
        unfold binTriples; rw [covBins_mCp]]
      rw [pBins_added]
      · rfl
      · intro s hs
        obtain ⟨a, ha, h1, _⟩ := mem_pick hs
        exact (h a ha).1 s h1
  · simp only
    unfold pCrosses
    rw [view_eachAll (u := fun c => (c.cps.getD [], binTriples c)) (F := addedCrosses) (M := Merge.pCross) (w := wCr) l]
    · rw [List.map_map]; rfl
    · intro k
      rw [pCross_eq]
      unfold wCr
      rw [show binTriples (mCross k (pick (ST.CROSS, k) l)) = (pBins (pick (ST.CROSS, k) l)).map (fun i => (i.name, i.kind, i.count)) by
        unfold binTriples; rw [covBins_mCross]]
      rw [pBins_added]
      · unfold addedCrosses
        rw [List.map_map]
        refine Prod.ext rfl (Prod.ext ?_ rfl)
        show headCps _ = _
        cases pick (ST.CROSS, k) l with
        | nil => rfl
        | cons a t => rfl
      · intro s hs
        obtain ⟨a, ha, h1, _⟩ := mem_pick hs
        exact (h a ha).2 s h1

theorem wDb_said {l : List Scope} (h : ∀ r ∈ l, KnownKinds r) : wDb (pMerge emptyDb l) = mergedSaid (l.map wDb) := by
  have hcg : ∀ {n : String} {gs : List Scope}, (∀ g ∈ gs, ∀ c ∈ kids ST.COVERINSTANCE g,
      (∀ x ∈ kids ST.COVERPOINT c, ThreeKinds x) ∧ ∀ x ∈ kids ST.CROSS c, ThreeKinds x) →
      wCg (mCg n gs) = (n, each (fun es => (each addedBins (es.map (·.1)), eachAll addedCrosses (es.map (·.2)))) (gs.map (fun g => (wCg g).2))) := by
    intro n gs hgs
    unfold wCg
    rw [kids_mCg_ci]
    refine Prod.ext rfl ?_
    simp only
    unfold pCoverinsts
    rw [view_each (u := fun c => (wCi c).2) (m := ST.COVERINSTANCE) (by decide) (M := pCoverinst) (w := wCi) gs]
    · rfl
    · intro k
      rw [pCoverinst_eq]
      apply wCi_said
      intro c hc
      obtain ⟨a, ha, h1, _⟩ := mem_pick hc
      exact hgs a ha c h1
  have hin : ∀ {n : String} {is : List Scope}, (∀ i ∈ is, ∀ g ∈ kids ST.COVERGROUP i, ∀ c ∈ kids ST.COVERINSTANCE g,
      (∀ x ∈ kids ST.COVERPOINT c, ThreeKinds x) ∧ ∀ x ∈ kids ST.CROSS c, ThreeKinds x) →
      wInst (mInst n is) = (n, each (each (fun es => (each addedBins (es.map (·.1)), eachAll addedCrosses (es.map (·.2))))) (is.map (fun i => (wInst i).2))) := by
    intro n is his
    unfold wInst
    rw [kids_mInst_cg]
    refine Prod.ext rfl ?_
    simp only
    unfold pCovergroups
    rw [view_each (u := fun c => (wCg c).2) (m := ST.COVERGROUP) (by decide) (M := pCovergroup) (w := wCg) is]
    · rfl
    · intro k
      rw [pCovergroup_eq]
      apply hcg
      intro g hg
      obtain ⟨a, ha, h1, _⟩ := mem_pick hg
      exact his a ha g h1
  unfold wDb mergedSaid
  rw [kids_pMerge]
  rw [view_each (u := fun c => (wInst c).2) (m := ST.INSTANCE) (by decide) (M := fun l n => mInst n (pick (ST.INSTANCE, n) l)) (w := wInst) l]
  · rfl
  · intro k
    apply hin
    intro i hi
    obtain ⟨a, ha, h1, _⟩ := mem_pick hi
    exact h a ha i h1

/-! ## Documents -/

theorem read_known {flt : FloatText} {doc : Elem} {db : Database} (h : Xml.read flt doc = .ok db) : KnownKinds db.root := by
  intro i hi g hg c hc
  obtain ⟨t, es, _, hgood, rfl⟩ := read_group h hi hg
  rw [insts_build, List.map_map] at hc
  obtain ⟨e, he, rfl⟩ := List.mem_map.1 hc
  constructor
  · intro x hx
    have h1 := cpView_dInst (hgood e he).1
    unfold cpView at h1
    have hm : (x.name, binTriples x) ∈ cpsOf e := by rw [← h1]; exact List.mem_map_of_mem (f := fun c => (c.name, binTriples c)) hx
    obtain ⟨p, hp, he'⟩ := List.mem_map.1 hm
    intro v hv
    have e2 : List.map binOf (within "coverpointBin" p) = binTriples x := (Prod.ext_iff.1 he').2
    rw [← e2] at hv
    obtain ⟨b, hb, rfl⟩ := List.mem_map.1 hv
    exact kind_binOf ((hgood e he).1.1 p hp b hb)
  · intro x hx
    have h1 := crossView_dInst e
    unfold crossKindView at h1
    have hm : (x.name, x.cps, binTriples x) ∈ docCrosses e := by rw [← h1]; exact List.mem_map_of_mem (f := fun c => (c.name, c.cps, binTriples c)) hx
    obtain ⟨p, hp, he'⟩ := List.mem_map.1 hm
    intro v hv
    have e2 : List.map crossBinOf (within "crossBin" p) = binTriples x := (Prod.ext_iff.1 (Prod.ext_iff.1 he').2).2
    rw [← e2] at hv
    obtain ⟨b, _, rfl⟩ := List.mem_map.1 hv
    exact kind_crossBinOf b

theorem wDb_read {flt : FloatText} {doc : Elem} {db : Database} (h : Xml.read flt doc = .ok db) : wDb db.root = said doc := by
  unfold said
  rw [← C69_reader_content h]
  unfold wDb dbView
  rw [List.map_map]
  apply List.map_congr_left
  intro i hi
  simp only [Function.comp, wInst, List.map_map]
  refine Prod.ext rfl ?_
  apply List.map_congr_left
  intro g hg
  simp only [Function.comp, wCg, List.map_map]
  rw [written_insts (read_instanced h i hi g hg)]
  refine Prod.ext rfl ?_
  apply List.map_congr_left
  intro c _
  simp only [Function.comp, wCi, cpView, crossKindView, List.map_map]
  rfl

/-- C113: what a file says that was made by merging XML files, in any stages. -/
theorem C113_merged {env : Env} (he : GoodEnv env) {docs : List Elem} {ls ds : List Database} {out db : Database} {doc : Elem} {flt' : FloatText}
    (hd : List.Forall₂ (fun d s => ∃ flt, Xml.read flt d = .ok s) docs ls) (hs : StagedAll ls ds)
    (hm : mergeDb ⟨emptyDb, [], []⟩ ds = .ok out) (hr : throughFile env out = .ok db) (hdb : Xml.read flt' doc = .ok db) :
    said doc = mergedSaid (docs.map said) := by
  have ka := keptAll hs
  obtain ⟨_, hroot, huo⟩ := mergeDb_pMerge hm
  have hp1 : Plainly out.root := by rw [hroot]; exact merged_plainly (roots_plainly ka.reads)
  have hv : wDb db.root = wDb (pMerge emptyDb (ls.map (·.root))) := by
    rw [wDb_throughFile he huo hp1 hr, hroot]; exact ka.merged
  rw [← wDb_read hdb, hv, wDb_said, List.map_map]
  · congr 1
    clear hs hm ka hroot hv
    induction hd with
    | nil => rfl
    | cons h _ ih =>
      obtain ⟨_, h⟩ := h
      rw [List.map_cons, List.map_cons, ih]
      simp only [Function.comp]
      rw [wDb_read h]
  · intro r hr'
    obtain ⟨s, hs', rfl⟩ := List.mem_map.1 hr'
    obtain ⟨_, _, h⟩ := ka.leaves s hs'
    exact read_known h

/-- C113: the report on such a file, in terms of the files merged. -/
theorem C113_report {env : Env} (he : GoodEnv env) {docs : List Elem} {ls ds : List Database} {out db : Database} {r : Rpt}
    (hd : List.Forall₂ (fun d s => ∃ flt, Xml.read flt d = .ok s) docs ls) (hs : StagedAll ls ds)
    (hm : mergeDb ⟨emptyDb, [], []⟩ ds = .ok out) (hr : throughFile env out = .ok db) (hb : build id db.root = .ok r) :
    r.covergroups = saidLines (mergedSaid (docs.map said)) ∧ r.coverage = saidTotal (mergedSaid (docs.map said)) := by
  obtain ⟨doc, h⟩ := read_ofFile hr
  rw [← C113_merged he hd hs hm hr h, ← (lines_said doc).1, ← (lines_said doc).2]
  exact C112_report h hb

/-! ## Example -/

namespace Xml.Ex

/-- Two files with the same instance and covergroup; the entry "e" is in both. -/
def sumDoc (a b : String) (other : String) : Elem := ⟨"UCIS", [], none, [⟨"instanceCoverages", [("name", "i")], none, [
  ⟨"covergroupCoverage", [], none, [figInst "e" [("a", "bins", a), ("b", "bins", b)] "0", figInst other [("z", "ignore", "1")] "1"]⟩]⟩]⟩

theorem sum_said : mergedSaid ([sumDoc "3" "0" "f", sumDoc "4" "0" "g"].map said)
    = [("i", [("cg", [("e", [("cp", [("a", CT.CVGBIN, 7), ("b", CT.CVGBIN, 0)])], [("cr", ["cp"], [("<a>", CT.CVGBIN, 0)])]),
        ("f", [("cp", [("z", CT.IGNOREBIN, 1)])], [("cr", ["cp"], [("<a>", CT.CVGBIN, 1)])]),
        ("g", [("cp", [("z", CT.IGNOREBIN, 1)])], [("cr", ["cp"], [("<a>", CT.CVGBIN, 1)])])])])] := by decide +kernel

theorem sum_total : saidTotal (mergedSaid ([sumDoc "3" "0" "f", sumDoc "4" "0" "g"].map said)) = 75 := by decide +kernel

theorem sum_run : (do
    let a ← Xml.read exEnv2.flt (sumDoc "3" "0" "f")
    let b ← Xml.read exEnv2.flt (sumDoc "4" "0" "g")
    let o ← mergeDb ⟨emptyDb, [], []⟩ [a, b]
    let d ← throughFile exEnv2 o
    let r ← build id d.root
    return decide (r.coverage = 75) : Except Err Bool) = .ok true := by decide +kernel

end Xml.Ex

example : ∃ a b o d r, Xml.read exEnv2.flt (Xml.Ex.sumDoc "3" "0" "f") = .ok a ∧ Xml.read exEnv2.flt (Xml.Ex.sumDoc "4" "0" "g") = .ok b ∧
    StagedAll [a, b] [a, b] ∧ mergeDb ⟨emptyDb, [], []⟩ [a, b] = .ok o ∧ throughFile exEnv2 o = .ok d ∧ build id d.root = .ok r ∧ r.coverage = 75 := by
  have h := Xml.Ex.sum_run
  obtain ⟨a, h1, h⟩ := Ex.bind_ok.1 h
  obtain ⟨b, h2, h⟩ := Ex.bind_ok.1 h
  obtain ⟨o, h3, h⟩ := Ex.bind_ok.1 h
  obtain ⟨d, h4, h⟩ := Ex.bind_ok.1 h
  obtain ⟨r, h5, h⟩ := Ex.bind_ok.1 h
  exact ⟨a, b, o, d, r, h1, h2, .cons (.file h1) (.cons (.file h2) .nil), h3, h4, h5, of_decide_eq_true (Except.ok.inj h)⟩

namespace Tools

/-- C113 for the commands with their default formats, in exact arithmetic: a report on the output of
a merge of XML files is the outline of the figures computed from the documents in the input files. -/
theorem C113_commands {x : Ext} (hf : Spec.Faithful x) (hx : x.rd = id) {a : MergeArgs} {b : ReportArgs} {w w1 w2 : World}
    (hi : a.inputFormat.getD "xml" = "xml") (ho : a.outputFormat.getD "xml" = "xml") (hbi : b.inputFormat.getD "xml" = "xml")
    (hbo : b.outputFormat.getD "txt" = "txt") (hab : b.db = a.out)
    (hm : ucisMerge x a w = (.ok (), w1)) (hr : ucisReport x b w1 = (.ok (), w2)) :
    ∃ docs r, List.Forall₂ (fun p doc => Spec.Holds x (w.files p) doc) a.db docs ∧
      r.covergroups = saidLines (mergedSaid (docs.map said)) ∧ r.coverage = saidTotal (mergedSaid (docs.map said)) ∧
      w2 = Spec.Reported w1 b.db b.out (Spec.txtOf x r) := by
  obtain ⟨o, res, wr, text, ⟨h1, i, dbs, new, h2, h3, h4, h5⟩, h6, _, h7, rfl⟩ := (C74_merge_success _ _ a w w1).1 hm
  rw [ho] at h1
  rw [hi] at h2
  cases (registered_xml x).symm.trans h1
  cases (registered_xml x).symm.trans h2
  cases h4
  cases h6
  obtain ⟨j, d, r, k1, k2, k3, _, k5⟩ := (C87_report_txt x b _ w2 hbo).1 hr
  rw [hbi] at k1
  cases (registered_xml x).symm.trans k1
  rw [hx] at k3
  have k2 : xmlRead x ((Spec.Written w a.db a.out text).files b.db) = .ok d := k2
  simp only [Spec.Written, hab, if_true] at k2
  rw [xmlRead_written hf h7] at k2
  have hdocs : ∃ docs, List.Forall₂ (fun p doc => Spec.Holds x (w.files p) doc) a.db docs ∧
      List.Forall₂ (fun d s => ∃ flt, Xml.read flt d = .ok s) docs dbs := by
    clear hm hr h5 h7 k2 k3 k5
    generalize a.db = ps at h3
    induction h3 with
    | nil => exact ⟨[], .nil, .nil⟩
    | cons h _ ih =>
      obtain ⟨docs, e1, e2⟩ := ih
      obtain ⟨doc, g1, g2⟩ := xmlRead_ok.1 h
      exact ⟨doc :: docs, .cons g1 e1, .cons ⟨_, (factoryRead_ok.1 g2).2⟩ e2⟩
  obtain ⟨docs, e1, e2⟩ := hdocs
  have hst : StagedAll dbs dbs := stagedAll_files (fun s hs => by
    obtain ⟨p, _, h⟩ := reads_mem h3 hs
    obtain ⟨doc, _, g2⟩ := xmlRead_ok.1 h
    exact ⟨_, doc, (factoryRead_ok.1 g2).2⟩)
  obtain ⟨q1, q2⟩ := C113_report hf.env e2 hst h5 k2 k3
  exact ⟨docs, r, e1, q1, q2, k5⟩

end Tools

end Verif
