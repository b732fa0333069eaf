import Verif.YamlFigures
import Verif.MergedDoc
/-!
# What an XML file made from YAML files says, in terms of the YAML documents

The chain of the YAML reader (`yaml_reader.py`), the merge (`db_merger.py:24-252`), the XML writer
(`xml_writer.py`), the XML reader (`xml_reader.py`) and the report builder
(`coverage_report_builder.py`): commands `merge` and `convert` with YAML input, then `report`.
-/

namespace Verif
namespace Spec
open Yaml (YBin YCp YCross YInst YCg YDoc)

/-- What is said in a YAML document: the instance `cg_inst` with all covergroups; thresholds, weights and
sums over instances do not count. -/
def yamlSaid (d : YDoc) : Said :=
  [("cg_inst", (docGroups d).map (fun g => (g.name, (g.instances.getD []).map (fun i =>
    (i.name, (YInst.cps i).map (fun c => (c.name, (kindBins c).map (fun b => (b.2.name, b.1, b.2.count)))),
      (YInst.crs i).map (fun c => (c.name, c.coverpoints, (c.bins.getD []).map (fun b => (b.name, CT.CVGBIN, b.count)))))))))]

/-- Blanks around the names of crossed coverpoints get lost. -/
def trimmed (v : Said) : Said :=
  v.map (fun i => (i.1, i.2.map (fun t => (t.1, t.2.map (fun e => (e.1, e.2.1, e.2.2.map (fun x =>
    (x.1, x.2.1.map (fun n => String.ofList (PyNum.stripL n.toList)), x.2.2))))))))

end Spec

namespace Yaml
open Spec Xml Merge

theorem triples_recordCp (c : YCp) : binTriples (recordCp c) = (kindBins c).map (fun b => (b.2.name, b.1, b.2.count)) := by
  have h1 : ∀ k, IsKind k → (maskHit k CT.CVGBIN || maskHit k CT.IGNOREBIN || maskHit k CT.ILLEGALBIN) = true := by
    rintro k (rfl | rfl | rfl) <;> decide
  unfold binTriples covBins
  rw [List.filter_eq_self.2]
  · simp [recordCp, mkCoverpoint, cpItems, kindBins, mkBin, Function.comp_def]
  · intro i hi
    apply h1
    have hi : i ∈ cpItems (c.atleast.getD 1) c.bins c.ignorebins c.illegalbins := hi
    unfold cpItems at hi
    simp only [List.mem_append, List.mem_map] at hi
    rcases hi with (⟨b, _, rfl⟩ | ⟨b, _, rfl⟩) | ⟨b, _, rfl⟩
    · exact .inl rfl
    · exact .inr (.inl rfl)
    · exact .inr (.inr rfl)

theorem triples_recordCross (c : YCross) : binTriples (recordCross c) = (c.bins.getD []).map (fun b => (b.name, CT.CVGBIN, b.count)) := by
  have h1 : (maskHit CT.CVGBIN CT.CVGBIN || maskHit CT.CVGBIN CT.IGNOREBIN || maskHit CT.CVGBIN CT.ILLEGALBIN) = true := by decide
  unfold binTriples covBins
  rw [List.filter_eq_self.2]
  · simp [recordCross, mkCross, mkBin, Function.comp_def]
  · intro i hi
    have hi : i ∈ (c.bins.getD []).map (fun b => mkBin b.name CT.CVGBIN (c.atleast.getD 1) b.count) := hi
    obtain ⟨b, _, rfl⟩ := List.mem_map.1 hi
    exact h1

theorem wDb_loaded (d : YDoc) : wDb (loadedDb ((docGroups d).map cgScope)).root = yamlSaid d := by
  unfold wDb
  rw [kids_inst]
  show [wInst _] = _
  unfold wInst yamlSaid
  rw [kids_defaultInst, List.map_map]
  refine congrArg (fun x => [x]) (Prod.ext rfl ?_)
  apply List.map_congr_left
  intro g _
  simp only [Function.comp, wCg]
  rw [kids_cg_inst, List.map_map]
  refine Prod.ext rfl ?_
  apply List.map_congr_left
  intro i _
  simp only [Function.comp, wCi]
  rw [kids_inst_cp, kids_inst_cross, List.map_map, List.map_map]
  refine Prod.ext rfl (Prod.ext ?_ ?_)
  · apply List.map_congr_left
    intro c _
    simp only [Function.comp, wCp, triples_recordCp]
    rfl
  · apply List.map_congr_left
    intro c _
    simp only [Function.comp, wCr, triples_recordCross]
    rfl

theorem known_loaded (d : YDoc) : KnownKinds (loadedDb ((docGroups d).map cgScope)).root := by
  intro i hi g hg c hc
  rw [kids_inst, List.mem_singleton] at hi
  subst hi
  rw [kids_defaultInst] at hg
  obtain ⟨y, _, rfl⟩ := List.mem_map.1 hg
  rw [kids_cg_inst] at hc
  obtain ⟨z, _, rfl⟩ := List.mem_map.1 hc
  constructor
  · intro x hx
    rw [kids_inst_cp] at hx
    obtain ⟨w, _, rfl⟩ := List.mem_map.1 hx
    intro t ht
    rw [triples_recordCp] at ht
    obtain ⟨b, hb, rfl⟩ := List.mem_map.1 ht
    simp only [kindBins, List.mem_append, List.mem_map] at hb
    rcases hb with (⟨b, _, rfl⟩ | ⟨b, _, rfl⟩) | ⟨b, _, rfl⟩
    · exact .inl rfl
    · exact .inr (.inl rfl)
    · exact .inr (.inr rfl)
  · intro x hx
    rw [kids_inst_cross] at hx
    obtain ⟨w, _, rfl⟩ := List.mem_map.1 hx
    intro t ht
    rw [triples_recordCross] at ht
    obtain ⟨b, _, rfl⟩ := List.mem_map.1 ht
    exact .inl rfl

/-- A covergroup of a document without instances has no coverpoints either. -/
theorem bare_group (g : YCg) (h : kids ST.COVERINSTANCE (cgScope g) = []) : kids ST.COVERPOINT (cgScope g) = [] := by
  rw [kids_cg_inst, List.map_eq_nil_iff] at h
  rw [kids_cg_cp, h]
  rfl

/-- What is read back from the file of a database whose covergroups have cover-instances. -/
theorem wDb_trimmed {env : Env} (he : GoodEnv env) {db db' : Database} (hu : UniqueInsts db.root) (hi : Instanced db.root)
    (ho : OrdinaryCrosses db.root) (hr : throughFile env db = .ok db') : wDb db'.root = trimmed (wDb db.root) := by
  unfold throughFile at hr
  obtain ⟨doc, hw, hr⟩ := Ex.bind_ok.1 hr
  obtain ⟨_, hr⟩ := factoryRead_ok.1 hr
  obtain ⟨_, rfl⟩ := (read_written he.envOk he.floatOk he.now hw db').1 hr
  unfold wDb trimmed
  rw [kids_rDb hu, List.map_map, List.map_map]
  apply List.map_congr_left
  intro i him
  simp only [Function.comp, wInst]
  rw [kids_rInst, List.map_map, List.map_map]
  refine Prod.ext rfl ?_
  apply List.map_congr_left
  intro g hg
  simp only [Function.comp, wCg, rCg]
  rw [insts_build, List.map_map, List.map_map, written_insts (hi i him g hg), List.map_map]
  refine Prod.ext rfl ?_
  apply List.map_congr_left
  intro c hc
  simp only [Function.comp, wCi]
  rw [kids_pInst_cp, kids_pInst_cross, List.map_map, List.map_map, List.map_map]
  refine Prod.ext rfl (Prod.ext ?_ ?_)
  · apply List.map_congr_left
    intro x _
    simp only [Function.comp, wCp, binTriples]
    rw [covBins_pCp, List.map_map]
    rfl
  · apply List.map_congr_left
    intro x hx
    simp only [Function.comp, wCr, binTriples]
    rw [covBins_pCr, List.map_map]
    refine Prod.ext rfl (Prod.ext rfl ?_)
    apply List.map_congr_left
    intro b hb
    simp only [Function.comp, mkBin]
    rw [ho i him g hg c hc x hx b hb]

/-- In a merge of documents that can be stored, every covergroup has a cover-instance. -/
theorem stored_instanced {env : Env} (he : GoodEnv env) {ds : List YDoc} {srcs : List Database} {out db : Database}
    (h : List.Forall₂ (fun d s => ∃ j, LoadedFrom j d s) ds srcs)
    (hm : mergeDb ⟨emptyDb, [], []⟩ srcs = .ok out) (hr : throughFile env out = .ok db) : Instanced out.root := by
  have hw : ∃ doc, Xml.write env out = .ok doc := by
    unfold throughFile at hr
    obtain ⟨doc, hw, _⟩ := Ex.bind_ok.1 hr
    exact ⟨doc, hw⟩
  obtain ⟨doc, hw⟩ := hw
  have hs := ((C40_through_file_partial he hw).1 ⟨db, hr⟩).1.groups
  obtain ⟨_, hroot, _⟩ := mergeDb_pMerge hm
  intro i hi g hg hnone
  have hg0 := hs i hi g hg g (by simp [writtenGroups, hnone])
  apply hg0.1
  rw [hroot, kids_pMerge] at hi
  obtain ⟨n, hn, rfl⟩ := List.mem_map.1 hi
  rw [kids_mInst_cg] at hg
  obtain ⟨k, hk, rfl⟩ := List.mem_map.1 hg
  rw [pCovergroup_eq] at hnone ⊢
  rw [kids_mCg_ci] at hnone
  rw [kids_mCg_cp]
  have hno : ∀ s ∈ pick (ST.COVERGROUP, k) (pick (ST.INSTANCE, n) (srcs.map (·.root))), kids ST.COVERPOINT s = [] := by
    intro s hs
    have hcs : kids ST.COVERINSTANCE s = [] := by
      by_contra hne
      obtain ⟨c, hc⟩ := List.exists_mem_of_ne_nil _ hne
      unfold pCoverinsts at hnone
      rw [List.map_eq_nil_iff] at hnone
      have : c.name ∈ childNames ST.COVERINSTANCE (pick (ST.COVERGROUP, k) (pick (ST.INSTANCE, n) (srcs.map (·.root)))) := by
        unfold childNames
        rw [mem_firstSeen]
        exact List.mem_flatMap.2 ⟨s, hs, List.mem_map_of_mem (f := fun s : Scope => s.name) hc⟩
      rw [hnone] at this
      cases this
    obtain ⟨a, ha, h1, _⟩ := mem_pick hs
    obtain ⟨r, hr, h2, _⟩ := mem_pick ha
    obtain ⟨db0, hdb, rfl⟩ := List.mem_map.1 hr
    obtain ⟨d, _, j, hj⟩ := exists_left h hdb
    obtain ⟨_, rfl⟩ := (load_says hj.1 db0).1 hj.2
    rw [kids_inst, List.mem_singleton] at h2
    subst h2
    rw [kids_defaultInst] at h1
    obtain ⟨y, _, rfl⟩ := List.mem_map.1 h1
    exact bare_group y hcs
  unfold pCoverpoints
  rw [List.map_eq_nil_iff]
  unfold childNames
  have : (pick (ST.COVERGROUP, k) (pick (ST.INSTANCE, n) (srcs.map (·.root)))).flatMap (fun s => (s.scopes ST.COVERPOINT).map (·.name)) = [] := by
    rw [List.flatMap_eq_nil_iff]
    intro s hs
    rw [List.map_eq_nil_iff]
    exact hno s hs
  rw [this]
  rfl

/-- C115: what an XML file says that was made by merging YAML files (or converting one). -/
theorem C115_merged {env : Env} (he : GoodEnv env) {ds : List YDoc} {srcs : List Database} {out db : Database} {doc : Elem} {flt : FloatText}
    (h : List.Forall₂ (fun d s => ∃ j, LoadedFrom j d s) ds srcs) (hm : mergeDb ⟨emptyDb, [], []⟩ srcs = .ok out)
    (hr : throughFile env out = .ok db) (hdb : Xml.read flt doc = .ok db) : said doc = trimmed (mergedSaid (ds.map yamlSaid)) := by
  obtain ⟨_, hroot, huo⟩ := mergeDb_pMerge hm
  have hord : OrdinaryCrosses out.root := by
    rw [hroot]
    apply merged_ordinaryCrosses
    intro s hs
    obtain ⟨db0, hdb0, rfl⟩ := List.mem_map.1 hs
    obtain ⟨d, _, j, hj⟩ := exists_left h hdb0
    obtain ⟨_, rfl⟩ := (load_says hj.1 db0).1 hj.2
    exact ordinary_loaded _
  rw [← wDb_read hdb, wDb_trimmed he huo (stored_instanced he h hm hr) hord hr, hroot, wDb_said, List.map_map]
  · congr 2
    clear hm hroot huo hord hr hdb
    rename_i hx
    clear hx
    induction h with
    | nil => rfl
    | cons h _ ih =>
      obtain ⟨j, hj⟩ := h
      obtain ⟨_, rfl⟩ := (load_says hj.1 _).1 hj.2
      rw [List.map_cons, List.map_cons, ih]
      simp only [Function.comp]
      rw [wDb_loaded]
  · intro r hr'
    obtain ⟨db0, hdb0, rfl⟩ := List.mem_map.1 hr'
    obtain ⟨d, _, j, hj⟩ := exists_left h hdb0
    obtain ⟨_, rfl⟩ := (load_says hj.1 db0).1 hj.2
    exact known_loaded d

/-- Figures do not depend on the crossed names. -/
theorem lines_trimmed (v : Said) : saidLines (trimmed v) = saidLines v ∧ saidTotal (trimmed v) = saidTotal v := by
  have key : ∀ v : Said, saidLines (trimmed v) = saidLines v := by
    intro v
    unfold saidLines trimmed
    rw [List.flatMap_map]
    apply List.flatMap_congr
    intro i _
    rw [List.map_map]
    apply List.map_congr_left
    intro t _
    simp only [Function.comp, List.flatMap_map, List.map_map, Function.comp_def]
  refine ⟨key v, ?_⟩
  unfold saidTotal
  have h1 : (trimmed v).getLast? = v.getLast?.map (fun i => (trimmed [i]).headD ("", [])) := by
    unfold trimmed
    rw [List.getLast?_map]
    rfl
  rw [h1, Option.map_map]
  congr 2
  funext i
  have := key [i]
  simp only [Function.comp]
  rw [← this]
  rfl

/-- C115: the report on such a file, in terms of the YAML documents. -/
theorem C115_report {env : Env} (he : GoodEnv env) {ds : List YDoc} {srcs : List Database} {out db : Database} {r : Report.Rpt}
    (h : List.Forall₂ (fun d s => ∃ j, LoadedFrom j d s) ds srcs) (hm : mergeDb ⟨emptyDb, [], []⟩ srcs = .ok out)
    (hr : throughFile env out = .ok db) (hb : Report.build id db.root = .ok r) :
    r.covergroups = saidLines (mergedSaid (ds.map yamlSaid)) ∧ r.coverage = saidTotal (mergedSaid (ds.map yamlSaid)) := by
  obtain ⟨doc, hd⟩ := read_ofFile hr
  obtain ⟨h1, h2⟩ := C112_report hd hb
  rw [(lines_said doc).1] at h1
  rw [(lines_said doc).2] at h2
  rw [C115_merged he h hm hr hd] at h1 h2
  rw [(lines_trimmed _).1] at h1
  rw [(lines_trimmed _).2] at h2
  exact ⟨h1, h2⟩

/-! ## Example -/

namespace Ex

/-- Two documents with the same covergroup instance; thresholds and a weight are set, the crossed name has blanks. -/
def sumYaml (n m : Int) : YDoc := ⟨some (some [
  ⟨"cg", some 2, some [⟨"i1", some [⟨"a", some 2, [⟨"x", n⟩, ⟨"y", m⟩], some [⟨"z", 0⟩], none⟩, ⟨"b ", none, [⟨"x", n⟩], none, none⟩, ⟨"b", none, [⟨"x", m⟩], none, none⟩],
    some [⟨"ab", none, ["a", "b "], some [⟨"p", n⟩, ⟨"q", m⟩]⟩]⟩]⟩,
  ⟨"ch", none, some [⟨"i1", some [⟨"c", none, [⟨"x", m⟩], none, none⟩], none⟩]⟩])⟩

theorem sum_yaml : trimmed (mergedSaid ([sumYaml 1 0, sumYaml 2 0].map yamlSaid))
    = [("cg_inst", [
        ("cg", [("i1", [("a", [("x", CT.CVGBIN, 3), ("y", CT.CVGBIN, 0), ("z", CT.IGNOREBIN, 0)]), ("b ", [("x", CT.CVGBIN, 3)]), ("b", [("x", CT.CVGBIN, 0)])],
          [("ab", ["a", "b"], [("p", CT.CVGBIN, 3), ("q", CT.CVGBIN, 0)])])]),
        ("ch", [("i1", [("c", [("x", CT.CVGBIN, 0)])], [])])])] ∧
    saidTotal (mergedSaid ([sumYaml 1 0, sumYaml 2 0].map yamlSaid)) = 25 := by decide +kernel

theorem sum_yaml_run : (do
    let a ← loadDoc (sumYaml 1 0)
    let b ← loadDoc (sumYaml 2 0)
    let o ← mergeDb ⟨emptyDb, [], []⟩ [a, b]
    let d ← throughFile exEnv2 o
    let r ← Report.build id d.root
    return decide (r.coverage = 25) : Except Err Bool) = .ok true := by decide +kernel

end Ex

example : ∃ a b o d r, List.Forall₂ (fun d s => ∃ j, LoadedFrom j d s) [Ex.sumYaml 1 0, Ex.sumYaml 2 0] [a, b] ∧
    mergeDb ⟨emptyDb, [], []⟩ [a, b] = .ok o ∧ throughFile exEnv2 o = .ok d ∧ Report.build id d.root = .ok r ∧ r.coverage = 25 := by
  have h := Ex.sum_yaml_run
  obtain ⟨a, h1, h⟩ := Ex.bind_ok.1 h
  obtain ⟨b, h2, h⟩ := Ex.bind_ok.1 h
  obtain ⟨o, h3, h⟩ := Ex.bind_ok.1 h
  obtain ⟨d, h4, h⟩ := Ex.bind_ok.1 h
  obtain ⟨r, h5, h⟩ := Ex.bind_ok.1 h
  exact ⟨a, b, o, d, r, .cons ⟨_, says_encode _, (load_encode _).trans h1⟩ (.cons ⟨_, says_encode _, (load_encode _).trans h2⟩ .nil),
    h3, h4, h5, of_decide_eq_true (Except.ok.inj h)⟩

end Yaml

namespace Tools
open Verif.Spec (said saidLines saidTotal mergedSaid trimmed yamlSaid)

/-- Files read with the YAML format hold documents. -/
theorem yaml_documents {x : Ext} {files : String → Option Bytes} {ps : List String} {dbs : List Database} (h : Spec.Reads (yamlIf x) files ps dbs) :
    ∃ ds, List.Forall₂ (fun p d => ∃ db, Spec.HoldsYaml x (files p) d db) ps ds ∧
      List.Forall₂ (fun d s => ∃ j, Verif.Spec.LoadedFrom j d s) ds dbs := by
  induction h with
  | nil => exact ⟨[], .nil, .nil⟩
  | @cons p db ps dbs h _ ih =>
    obtain ⟨ds, h1, h2⟩ := ih
    cases hc : files p with
    | none => rw [hc] at h; cases h
    | some c =>
      rw [hc] at h
      obtain ⟨j, hj, hl⟩ := Ex.bind_ok.1 h
      obtain ⟨d, hs, _⟩ := (Yaml.C72_load_accepts j).1 ⟨_, hl⟩
      exact ⟨d :: ds, .cons ⟨_, c, j, hc, hj, hs, hl⟩ h1, .cons ⟨j, hs, hl⟩ h2⟩

theorem holds_unique {x : Ext} {c : Option Bytes} {d d' : Xml.Elem} (h : Spec.Holds x c d) (h' : Spec.Holds x c d') : d = d' := by
  obtain ⟨c, t, rfl, h1, h2⟩ := h
  obtain ⟨c', t', e, h1', h2'⟩ := h'
  cases e
  have : t = t' := by
    rcases h2 with ⟨a, b⟩ | ⟨a, b⟩ | ⟨a, b⟩ <;> rcases h2' with ⟨a', b'⟩ | ⟨a', b'⟩ | ⟨a', b'⟩ <;>
      first
        | exact Except.ok.inj (b.symm.trans b')
        | exact b.trans b'.symm
        | (cases a.symm.trans a')
  subst this
  exact Except.ok.inj (h1.symm.trans h1')

/-- C115 for `merge` with YAML input and XML output: the input files hold documents, and every XML document that can be read
from the output file says the sums. -/
theorem C115_merge_command {x : Ext} (hf : Spec.Faithful x) {a : MergeArgs} {w w' : World} (hi : a.inputFormat = some "yaml")
    (ho : a.outputFormat.getD "xml" = "xml") (hm : ucisMerge x a w = (.ok (), w')) :
    ∃ ds, List.Forall₂ (fun p d => ∃ db, Spec.HoldsYaml x (w.files p) d db) a.db ds ∧
      ∀ doc db, Spec.Holds x (w'.files a.out) doc → xmlRead x (w'.files a.out) = .ok db → said doc = trimmed (mergedSaid (ds.map yamlSaid)) := by
  obtain ⟨dbs, out, q1, q2, q3⟩ := merge_to_xml hf (i := ⟨_, _, _, _⟩) (by rw [hi]; exact registered_yaml x) ho hm
  obtain ⟨ds, h1, h2⟩ := yaml_documents q1
  refine ⟨ds, h1, ?_⟩
  intro doc db hd hr
  obtain ⟨doc', hd', hr'⟩ := xmlRead_ok.1 hr
  cases holds_unique hd hd'
  exact Yaml.C115_merged hf.env h2 q2 (q3.symm.trans hr) (factoryRead_ok.1 hr').2

/-- C115 for `merge` with YAML input followed by `report`, in exact arithmetic. -/
theorem C115_commands {x : Ext} (hf : Spec.Faithful x) (hx : x.rd = id) {a : MergeArgs} {b : ReportArgs} {w w1 w2 : World}
    (hi : a.inputFormat = some "yaml") (ho : a.outputFormat.getD "xml" = "xml") (hbi : b.inputFormat.getD "xml" = "xml")
    (hbo : b.outputFormat.getD "txt" = "txt") (hab : b.db = a.out)
    (hm : ucisMerge x a w = (.ok (), w1)) (hr : ucisReport x b w1 = (.ok (), w2)) :
    ∃ ds r, List.Forall₂ (fun p d => ∃ db, Spec.HoldsYaml x (w.files p) d db) a.db ds ∧
      r.covergroups = saidLines (mergedSaid (ds.map yamlSaid)) ∧ r.coverage = saidTotal (mergedSaid (ds.map yamlSaid)) ∧
      w2 = Spec.Reported w1 b.db b.out (Spec.txtOf x r) := by
  obtain ⟨dbs, out, q1, q2, q3⟩ := merge_to_xml hf (i := ⟨_, _, _, _⟩) (by rw [hi]; exact registered_yaml x) ho hm
  obtain ⟨ds, h1, h2⟩ := yaml_documents q1
  obtain ⟨j, d, r, k1, k2, k3, _, k5⟩ := (C87_report_txt x b _ w2 hbo).1 hr
  rw [hbi] at k1
  cases (registered_xml x).symm.trans k1
  rw [hx] at k3
  have k2 : xmlRead x (w1.files b.db) = .ok d := k2
  rw [hab, q3] at k2
  obtain ⟨e1, e2⟩ := Yaml.C115_report hf.env h2 q2 k2 k3
  exact ⟨ds, r, h1, e1, e2, k5⟩

/-- C115 for `convert` with YAML input followed by `report`, in exact arithmetic. -/
theorem C115_convert_commands {x : Ext} (hf : Spec.Faithful x) (hx : x.rd = id) {a : ConvertArgs} {b : ReportArgs} {w w1 w2 : World}
    (hi : a.inputFormat = some "yaml") (ho : a.outputFormat.getD "xml" = "xml") (hbi : b.inputFormat.getD "xml" = "xml")
    (hbo : b.outputFormat.getD "txt" = "txt") (hab : b.db = a.out)
    (hm : ucisConvert x a w = (.ok (), w1)) (hr : ucisReport x b w1 = (.ok (), w2)) :
    ∃ d db r, Spec.HoldsYaml x (w.files a.input) d db ∧
      r.covergroups = saidLines (mergedSaid [yamlSaid d]) ∧ r.coverage = saidTotal (mergedSaid [yamlSaid d]) ∧
      w2 = Spec.Reported w1 b.db b.out (Spec.txtOf x r) := by
  obtain ⟨ds, r, h, h1, h2, h3⟩ := C115_commands hf hx (a := ⟨a.inputFormat, a.outputFormat, [a.input], a.out⟩) hi ho hbi hbo hab (convert_iff_merge.1 hm) hr
  cases h with
  | cons h ht =>
    cases ht
    obtain ⟨db, h⟩ := h
    exact ⟨_, db, r, h, h1, h2, h3⟩

end Tools
end Verif
