import Verif.MoreFiles
/-!
# Reports after merging more files (C119)

The chain of reader, merge (`db_merger.py:24-252`), XML writer, XML reader and report builder for two
lists of files of which one continues the other.
-/

namespace Verif
namespace Spec
open Yaml (YDoc YInst)

/-- No count in a YAML document is negative. -/
def CountsFine (d : YDoc) : Prop :=
  ∀ g ∈ docGroups d, ∀ i ∈ g.instances.getD [], (∀ c ∈ YInst.cps i, ∀ b ∈ kindBins c, 0 ≤ b.2.count) ∧
    ∀ c ∈ YInst.crs i, ∀ b ∈ c.bins.getD [], 0 ≤ b.count

end Spec

namespace MoreFiles
open Spec UnionCov
open Xml (Elem FloatText)
open Report (RBin RCp RCross RCg Rpt build)
open Yaml (YDoc YInst)

/-! ## XML files -/

open Merge (mergeDb)
open Xml (Env throughFile)

theorem fine_doc {doc : Elem} (hv : Xsd.valid Xsd.ucisXsd doc = true) : FineSaid (said doc) := by
  intro i hi t ht e he
  obtain ⟨i0, hi0, rfl⟩ := List.mem_map.1 hi
  obtain ⟨t0, ht0, rfl⟩ := List.mem_map.1 ht
  obtain ⟨e0, he0, rfl⟩ := List.mem_map.1 he
  have hc := entry_counts hv hi0 ht0 he0
  have hk : ∀ q ∈ entryCrosses e0, ∀ v ∈ q.2, v.2.1 = CT.CVGBIN := by
    intro q hq v hv
    obtain ⟨x, _, c, _, g, _, rfl⟩ := docView_entry hi0 ht0 he0
    obtain ⟨z, hz, rfl⟩ := List.mem_map.1 hq
    obtain ⟨y, _, rfl⟩ := List.mem_map.1 (show z ∈ docCrosses g from hz)
    obtain ⟨b, _, rfl⟩ := List.mem_map.1 hv
    rfl
  have hcv : cview (e0.2.1, e0.2.2.map (fun x => (x.1, x.2.1.getD [], x.2.2))) = entryCrosses e0 := by
    unfold cview entryCrosses
    rw [List.map_map]
    rfl
  refine ⟨⟨fun q hq v hv => hc q (List.mem_append_left _ hq) v hv, ?_⟩, ?_⟩
  · show NP (cview (e0.2.1, e0.2.2.map (fun x => (x.1, x.2.1.getD [], x.2.2))))
    rw [hcv]
    exact fun q hq v hv => hc q (List.mem_append_right _ hq) v hv
  · show ∀ q ∈ cview (e0.2.1, e0.2.2.map (fun x => (x.1, x.2.1.getD [], x.2.2))), _
    rw [hcv]
    exact hk

theorem made_said {doc : Elem} {flt : FloatText} {db : Database} {r : Rpt} (h : Xml.read flt doc = .ok db) (hb : build id db.root = .ok r) :
    ∀ i ∈ said doc, i.2 ≠ [] := by
  intro i hi
  obtain ⟨i0, hi0, rfl⟩ := List.mem_map.1 hi
  have := (Xml.C112_made h).1 ⟨r, hb⟩ i0 hi0
  simpa using this

theorem valid_docs {docs : List Elem} {ls : List Database}
    (h : List.Forall₂ (fun d s => ∃ flt, Xml.factoryRead flt d = .ok s) docs ls) :
    (∀ d ∈ docs, Xsd.valid Xsd.ucisXsd d = true) ∧ List.Forall₂ (fun d s => ∃ flt, Xml.read flt d = .ok s) docs ls := by
  induction h with
  | nil => exact ⟨by simp, .nil⟩
  | cons h _ ih =>
    obtain ⟨flt, h⟩ := h
    obtain ⟨h1, h2⟩ := factoryRead_ok.1 h
    refine ⟨?_, .cons ⟨flt, h2⟩ ih.2⟩
    intro d hd
    rcases List.mem_cons.1 hd with rfl | hd
    · exact h1
    · exact ih.1 d hd

theorem fine_docs {docs more : List Elem} (h : ∀ d ∈ docs, Xsd.valid Xsd.ucisXsd d = true) (h' : ∀ d ∈ more, Xsd.valid Xsd.ucisXsd d = true) :
    ∀ v ∈ docs.map said ++ more.map said, FineSaid v := by
  intro v hv
  rcases List.mem_append.1 hv with hv | hv
  · obtain ⟨d, hd, rfl⟩ := List.mem_map.1 hv
    exact fine_doc (h d hd)
  · obtain ⟨d, hd, rfl⟩ := List.mem_map.1 hv
    exact fine_doc (h' d hd)

/-- C119: two merges of XML files, in any stages, where the second one has more files. Everything on the
first report is on the second one, with at least the same counts; and if the second report shows
nothing else, no figure is lower. -/
theorem C119_xml_partial {env env' : Env} (he : GoodEnv env) (he' : GoodEnv env') {docs more : List Elem} {ls ms ds ds' : List Database}
    {out out' db db' : Database} {r r' : Rpt}
    (hd : List.Forall₂ (fun d s => ∃ flt, Xml.factoryRead flt d = .ok s) docs ls)
    (hd' : List.Forall₂ (fun d s => ∃ flt, Xml.factoryRead flt d = .ok s) more ms)
    (hs : StagedAll ls ds) (hs' : StagedAll (ls ++ ms) ds')
    (hm : mergeDb ⟨emptyDb, [], []⟩ ds = .ok out) (hm' : mergeDb ⟨emptyDb, [], []⟩ ds' = .ok out')
    (hr : throughFile env out = .ok db) (hr' : throughFile env' out' = .ok db')
    (hb : build id db.root = .ok r) (hb' : build id db'.root = .ok r') :
    (∀ g ∈ r.covergroups, ∃ g' ∈ r'.covergroups, LineKept g g') ∧ (SameShape r r' → ReportKept r r') := by
  obtain ⟨hv, hd⟩ := valid_docs hd
  obtain ⟨hv', hd'⟩ := valid_docs hd'
  have hf := fine_docs hv hv'
  have hdd : List.Forall₂ _ (docs ++ more) (ls ++ ms) := List.rel_append hd hd'
  obtain ⟨q1, q2⟩ := C113_report he hd hs hm hr hb
  obtain ⟨q1', q2'⟩ := C113_report he' hdd hs' hm' hr' hb'
  obtain ⟨doc, hdoc⟩ := read_ofFile hr'
  have hne := made_said hdoc hb'
  rw [C113_merged he' hdd hs' hm' hr' hdoc, List.map_append] at hne
  rw [List.map_append] at q1' q2'
  unfold SameShape
  rw [q1, q1']
  refine ⟨said_kept hf, fun h => ?_⟩
  obtain ⟨h1, h2⟩ := said_figures hf hne h
  exact ⟨by rw [q2, q2']; exact h2, by rw [q1, q1']; exact h1⟩

/-! ## YAML files -/

theorem fine_yaml {d : YDoc} (h : CountsFine d) : FineSaid (yamlSaid d) := by
  intro i hi t ht e he
  rw [yamlSaid, List.mem_singleton] at hi
  subst hi
  obtain ⟨g, hg, rfl⟩ := List.mem_map.1 ht
  obtain ⟨x, hx, rfl⟩ := List.mem_map.1 he
  obtain ⟨h1, h2⟩ := h g hg x hx
  have key : ∀ q ∈ cview ((YInst.cps x).map (fun c => (c.name, (kindBins c).map (fun b => (b.2.name, b.1, b.2.count)))),
      (YInst.crs x).map (fun c => (c.name, c.coverpoints, (c.bins.getD []).map (fun b => (b.name, CT.CVGBIN, b.count))))),
      ∀ v ∈ q.2, v.2.1 = CT.CVGBIN ∧ 0 ≤ v.2.2 := by
    intro q hq v hv
    unfold cview at hq
    obtain ⟨z, hz, rfl⟩ := List.mem_map.1 hq
    obtain ⟨c, hc, rfl⟩ := List.mem_map.1 hz
    obtain ⟨b, hb, rfl⟩ := List.mem_map.1 hv
    exact ⟨rfl, h2 c hc b hb⟩
  refine ⟨⟨?_, fun q hq v hv => (key q hq v hv).2⟩, fun q hq v hv => (key q hq v hv).1⟩
  intro q hq v hv
  obtain ⟨c, hc, rfl⟩ := List.mem_map.1 hq
  obtain ⟨b, hb, rfl⟩ := List.mem_map.1 hv
  exact h1 c hc b hb

/-- C119 for XML files made by merging YAML files. -/
theorem C119_yaml_partial {env env' : Env} (he : GoodEnv env) (he' : GoodEnv env') {ds more : List YDoc} {srcs srcs' : List Database}
    {out out' db db' : Database} {r r' : Rpt}
    (h : List.Forall₂ (fun d s => ∃ j, LoadedFrom j d s) ds srcs) (h' : List.Forall₂ (fun d s => ∃ j, LoadedFrom j d s) more srcs')
    (hc : ∀ d ∈ ds ++ more, CountsFine d)
    (hm : mergeDb ⟨emptyDb, [], []⟩ srcs = .ok out) (hm' : mergeDb ⟨emptyDb, [], []⟩ (srcs ++ srcs') = .ok out')
    (hr : throughFile env out = .ok db) (hr' : throughFile env' out' = .ok db')
    (hb : build id db.root = .ok r) (hb' : build id db'.root = .ok r') :
    (∀ g ∈ r.covergroups, ∃ g' ∈ r'.covergroups, LineKept g g') ∧ (SameShape r r' → ReportKept r r') := by
  have hf : ∀ v ∈ ds.map yamlSaid ++ more.map yamlSaid, FineSaid v := by
    intro v hv
    rw [← List.map_append] at hv
    obtain ⟨d, hd, rfl⟩ := List.mem_map.1 hv
    exact fine_yaml (hc d hd)
  have hh : List.Forall₂ _ (ds ++ more) (srcs ++ srcs') := List.rel_append h h'
  obtain ⟨q1, q2⟩ := Yaml.C115_report he h hm hr hb
  obtain ⟨q1', q2'⟩ := Yaml.C115_report he' hh hm' hr' hb'
  obtain ⟨doc, hdoc⟩ := read_ofFile hr'
  have hne := made_said hdoc hb'
  rw [Yaml.C115_merged he' hh hm' hr' hdoc, List.map_append] at hne
  rw [List.map_append] at q1' q2'
  unfold SameShape
  rw [q1, q1']
  refine ⟨said_kept hf, fun hsh => ?_⟩
  obtain ⟨h1, h2⟩ := said_figures hf (fun i hi e => hne _ (List.mem_map_of_mem hi) (by simp [e])) hsh
  exact ⟨by rw [q2, q2']; exact h2, by rw [q1, q1']; exact h1⟩


/-! ## Examples and counterexamples -/

instance (l l' : List RBin) : Decidable (BinsKept l l') := by unfold BinsKept; infer_instance
instance (g g' : RCg) : Decidable (PartsKept g g') := decidable_of_iff
  ((∀ p ∈ g.coverpoints, ∃ p' ∈ g'.coverpoints, p'.name = p.name ∧ BinsKept p.bins p'.bins) ∧
    (∀ p ∈ g.crosses, ∃ p' ∈ g'.crosses, p'.name = p.name ∧ BinsKept p.bins p'.bins)) ⟨fun ⟨a, b⟩ => ⟨a, b⟩, fun ⟨a, b⟩ => ⟨a, b⟩⟩
instance (r r' : Rpt) : Decidable (SameShape r r') := by unfold SameShape; infer_instance
instance (d : YDoc) : Decidable (CountsFine d) := by unfold CountsFine; infer_instance

/-- Two XML files are read; the first one alone, and both, are merged, stored, read again and reported. -/
def XmlRuns (P : Rpt → Rpt → Prop) : Prop :=
  ∃ flt doc doc' d1 d2 out out' db db' r r', Xml.factoryRead flt doc = .ok d1 ∧ Xml.factoryRead flt doc' = .ok d2 ∧
    mergeDb ⟨emptyDb, [], []⟩ [d1] = .ok out ∧ mergeDb ⟨emptyDb, [], []⟩ [d1, d2] = .ok out' ∧
    throughFile Xml.exEnv2 out = .ok db ∧ throughFile Xml.exEnv2 out' = .ok db' ∧ build id db.root = .ok r ∧ build id db'.root = .ok r' ∧ P r r'

/-- The same for two YAML files with the documents `d` and `d'`. -/
def YamlRuns (d d' : YDoc) (P : Rpt → Rpt → Prop) : Prop :=
  ∃ j j' d1 d2 out out' db db' r r', LoadedFrom j d d1 ∧ LoadedFrom j' d' d2 ∧
    mergeDb ⟨emptyDb, [], []⟩ [d1] = .ok out ∧ mergeDb ⟨emptyDb, [], []⟩ [d1, d2] = .ok out' ∧
    throughFile Xml.exEnv2 out = .ok db ∧ throughFile Xml.exEnv2 out' = .ok db' ∧ build id db.root = .ok r ∧ build id db'.root = .ok r' ∧ P r r'

def xmlTest (d d' : YDoc) (P : Rpt → Rpt → Bool) : Except Err Bool := do
  let y1 ← Yaml.loadDoc d
  let y2 ← Yaml.loadDoc d'
  let x1 ← Xml.write Xml.exEnv2 y1
  let x2 ← Xml.write Xml.exEnv2 y2
  let d1 ← Xml.factoryRead Xml.exEnv2.flt (Xml.reparse x1)
  let d2 ← Xml.factoryRead Xml.exEnv2.flt (Xml.reparse x2)
  let o ← mergeDb ⟨emptyDb, [], []⟩ [d1]
  let o' ← mergeDb ⟨emptyDb, [], []⟩ [d1, d2]
  let db ← throughFile Xml.exEnv2 o
  let db' ← throughFile Xml.exEnv2 o'
  let r ← build id db.root
  let r' ← build id db'.root
  pure (P r r')

theorem xmlTest_ok {d d' : YDoc} {P : Rpt → Rpt → Bool} (h : xmlTest d d' P = .ok true) : XmlRuns (fun r r' => P r r' = true) := by
  obtain ⟨_, _, h⟩ := Ex.bind_ok.1 h
  obtain ⟨_, _, h⟩ := Ex.bind_ok.1 h
  obtain ⟨_, _, h⟩ := Ex.bind_ok.1 h
  obtain ⟨_, _, h⟩ := Ex.bind_ok.1 h
  obtain ⟨_, h1, h⟩ := Ex.bind_ok.1 h
  obtain ⟨_, h2, h⟩ := Ex.bind_ok.1 h
  obtain ⟨_, h3, h⟩ := Ex.bind_ok.1 h
  obtain ⟨_, h4, h⟩ := Ex.bind_ok.1 h
  obtain ⟨_, h5, h⟩ := Ex.bind_ok.1 h
  obtain ⟨_, h6, h⟩ := Ex.bind_ok.1 h
  obtain ⟨_, h7, h⟩ := Ex.bind_ok.1 h
  obtain ⟨_, h8, h⟩ := Ex.bind_ok.1 h
  exact ⟨_, _, _, _, _, _, _, _, _, _, _, h1, h2, h3, h4, h5, h6, h7, h8, Except.ok.inj h⟩

def yamlTest (d d' : YDoc) (P : Rpt → Rpt → Bool) : Except Err Bool := do
  let d1 ← Yaml.loadDoc d
  let d2 ← Yaml.loadDoc d'
  let o ← mergeDb ⟨emptyDb, [], []⟩ [d1]
  let o' ← mergeDb ⟨emptyDb, [], []⟩ [d1, d2]
  let db ← throughFile Xml.exEnv2 o
  let db' ← throughFile Xml.exEnv2 o'
  let r ← build id db.root
  let r' ← build id db'.root
  pure (P r r')

theorem yamlTest_ok {d d' : YDoc} {P : Rpt → Rpt → Bool} (h : yamlTest d d' P = .ok true) : YamlRuns d d' (fun r r' => P r r' = true) := by
  obtain ⟨_, h1, h⟩ := Ex.bind_ok.1 h
  obtain ⟨_, h2, h⟩ := Ex.bind_ok.1 h
  obtain ⟨_, h3, h⟩ := Ex.bind_ok.1 h
  obtain ⟨_, h4, h⟩ := Ex.bind_ok.1 h
  obtain ⟨_, h5, h⟩ := Ex.bind_ok.1 h
  obtain ⟨_, h6, h⟩ := Ex.bind_ok.1 h
  obtain ⟨_, h7, h⟩ := Ex.bind_ok.1 h
  obtain ⟨_, h8, h⟩ := Ex.bind_ok.1 h
  exact ⟨_, _, _, _, _, _, _, _, _, _, ⟨Yaml.says_encode d, (Yaml.load_encode d).trans h1⟩, ⟨Yaml.says_encode d', (Yaml.load_encode d').trans h2⟩,
    h3, h4, h5, h6, h7, h8, Except.ok.inj h⟩

/-- The hypotheses of `C119_xml_partial` are met: with the second file the coverage rises from 50 to 75. -/
example : XmlRuns (fun r r' => decide (SameShape r r' ∧ r.coverage = 50 ∧ r'.coverage = 75 ∧ ∀ g ∈ r'.covergroups, OneKind g) = true) :=
  xmlTest_ok (d := exDoc none [⟨"x", 3⟩, ⟨"y", 0⟩] [⟨"z", 1⟩] [⟨"x", 1⟩, ⟨"y", 0⟩] [])
    (d' := exDoc none [⟨"x", 0⟩, ⟨"y", 0⟩] [] [⟨"x", 1⟩, ⟨"y", 2⟩] []) (by decide +kernel)

/-- The hypotheses of `C119_yaml_partial` are met. -/
example : ∃ d d', CountsFine d ∧ CountsFine d' ∧ YamlRuns d d' (fun r r' => decide (SameShape r r' ∧ r.coverage = 50 ∧ r'.coverage = 75) = true) :=
  ⟨exDoc none [⟨"x", 3⟩, ⟨"y", 0⟩] [⟨"z", 1⟩] [⟨"x", 1⟩, ⟨"y", 0⟩] [], exDoc none [⟨"x", 0⟩, ⟨"y", 0⟩] [] [⟨"x", 1⟩, ⟨"y", 2⟩] [],
    by decide +kernel, by decide +kernel, yamlTest_ok (by decide +kernel)⟩

/-- C119 fails for the figures if the second file has further bins: the coverage sinks from 75 to 50,
although every count is kept. -/
theorem C119_figures_refuted : XmlRuns (fun r r' => decide ((∀ g ∈ r.covergroups, ∃ g' ∈ r'.covergroups, PartsKept g g') ∧
    r.coverage = 75 ∧ r'.coverage = 50) = true) :=
  xmlTest_ok (d := exDoc none [⟨"x", 3⟩] [] [⟨"x", 1⟩] []) (d' := exDoc none [⟨"y", 0⟩] [] [⟨"y", 0⟩] []) (by decide +kernel)

/-- C119 fails for the bins of a covergroup if the second file has an ignore bin named like an ordinary
bin of another instance: the covered bin `b` is no longer listed for the covergroup, nor is its coverpoint
covered any more. -/
theorem C119_bins_refuted : XmlRuns (fun r r' => decide (
    (∃ g ∈ r.covergroups, ∃ p ∈ g.coverpoints, ∃ b ∈ p.bins, b.name = "b" ∧ b.hit = true) ∧
    (∀ g ∈ r'.covergroups, ∀ p ∈ g.coverpoints, ∀ b ∈ p.bins, b.name ≠ "b")) = true) :=
  xmlTest_ok (d := exDoc none [⟨"x", 0⟩] [] [⟨"b", 1⟩] []) (d' := exDoc none [⟨"x", 0⟩] [⟨"b", 0⟩] [⟨"b", 2⟩] []) (by decide +kernel)

/-- C119 fails for YAML files with negative counts. -/
theorem C119_negative_refuted : ∃ d d', YamlRuns d d' (fun r r' => decide (SameShape r r' ∧ r.coverage = 75 ∧ r'.coverage = 25) = true) :=
  ⟨exDoc none [⟨"x", 3⟩] [] [⟨"x", 1⟩] [], exDoc none [⟨"x", -3⟩] [] [⟨"x", -1⟩] [], yamlTest_ok (by decide +kernel)⟩

end MoreFiles

/-! ## Commands -/

namespace Tools

/-- `r` is the report on the XML file `p`, in exact arithmetic. -/
def Spec.ReportsOn (x : Ext) (w : World) (p : String) (r : Report.Rpt) : Prop :=
  ∃ db, xmlRead x (w.files p) = .ok db ∧ Report.build id db.root = .ok r

open Verif.Spec (LineKept SameShape ReportKept CountsFine)
open MoreFiles
open Report (Rpt)

theorem xml_documents {x : Ext} {files : String → Option Bytes} {ps : List String} {dbs : List Database} (h : Spec.Reads (xmlIf x) files ps dbs) :
    ∃ docs, List.Forall₂ (fun d s => ∃ flt, Xml.factoryRead flt d = .ok s) docs dbs := by
  induction h with
  | nil => exact ⟨[], .nil⟩
  | cons h _ ih =>
    obtain ⟨docs, h2⟩ := ih
    obtain ⟨doc, g1, g2⟩ := xmlRead_ok.1 h
    exact ⟨doc :: docs, .cons ⟨_, g2⟩ h2⟩

/-- What `report` on the output of `merge` prints, if the input files are XML files. -/
theorem merge_report {x : Ext} (hf : Spec.Faithful x) (hx : x.rd = id) {a : MergeArgs} {b : ReportArgs} {w w1 w2 : World} {i : DbDesc Database}
    (hi : Spec.Registered (defaultRgy x) (a.inputFormat.getD "xml") i) (ho : a.outputFormat.getD "xml" = "xml")
    (hbi : b.inputFormat.getD "xml" = "xml") (hbo : b.outputFormat.getD "txt" = "txt") (hab : b.db = a.out)
    (hm : ucisMerge x a w = (.ok (), w1)) (hr : ucisReport x b w1 = (.ok (), w2)) :
    ∃ dbs out db r, Spec.Reads i.fmtIf w.files a.db dbs ∧ Merge.mergeDb ⟨emptyDb, [], []⟩ dbs = .ok out ∧ Xml.throughFile x.env out = .ok db ∧
      Report.build id db.root = .ok r ∧ xmlRead x (w1.files b.db) = .ok db ∧ w2 = Spec.Reported w1 b.db b.out (Spec.txtOf x r) := by
  obtain ⟨dbs, out, q1, q2, q3⟩ := merge_to_xml hf hi ho hm
  obtain ⟨j, d, r, k1, k2, k3, _, k5⟩ := (C87_report_txt x b _ w2 hbo).1 hr
  rw [hbi] at k1
  cases (registered_xml x).symm.trans k1
  rw [hx] at k3
  have k2 : xmlRead x (w1.files b.db) = .ok d := k2
  exact ⟨dbs, out, d, r, q1, q2, by rw [← q3, ← hab]; exact k2, k3, k2, k5⟩

theorem reads_files {x : Ext} {files : String → Option Bytes} {ps : List String} {dbs : List Database} (h : Spec.Reads (xmlIf x) files ps dbs) :
    Verif.Spec.StagedAll dbs dbs := by
  apply stagedAll_files
  intro s hs
  obtain ⟨p, _, h⟩ := reads_mem h hs
  obtain ⟨doc, _, g2⟩ := xmlRead_ok.1 h
  exact ⟨_, doc, (factoryRead_ok.1 g2).2⟩

/-- C119 for `merge` and `report`, in exact arithmetic: a second `merge` is given the XML files of the
first one and more; the two reports printed compare as said. -/
theorem C119_commands_partial {x : Ext} (hf : Spec.Faithful x) (hx : x.rd = id) {a a' : MergeArgs} {b b' : ReportArgs} {w w1 w2 w1' w2' : World}
    {more : List String} (hmore : a'.db = a.db ++ more)
    (hi : a.inputFormat.getD "xml" = "xml") (ho : a.outputFormat.getD "xml" = "xml") (hbi : b.inputFormat.getD "xml" = "xml")
    (hbo : b.outputFormat.getD "txt" = "txt") (hab : b.db = a.out)
    (hi' : a'.inputFormat.getD "xml" = "xml") (ho' : a'.outputFormat.getD "xml" = "xml") (hbi' : b'.inputFormat.getD "xml" = "xml")
    (hbo' : b'.outputFormat.getD "txt" = "txt") (hab' : b'.db = a'.out)
    (hm : ucisMerge x a w = (.ok (), w1)) (hr : ucisReport x b w1 = (.ok (), w2))
    (hm' : ucisMerge x a' w = (.ok (), w1')) (hr' : ucisReport x b' w1' = (.ok (), w2')) :
    ∃ r r', Spec.ReportsOn x w1 b.db r ∧ Spec.ReportsOn x w1' b'.db r' ∧ w2 = Spec.Reported w1 b.db b.out (Spec.txtOf x r) ∧ w2' = Spec.Reported w1' b'.db b'.out (Spec.txtOf x r') ∧
      (∀ g ∈ r.covergroups, ∃ g' ∈ r'.covergroups, LineKept g g') ∧ (SameShape r r' → ReportKept r r') := by
  obtain ⟨dbs, out, db, r, q1, q2, q3, q4, q6, q5⟩ := merge_report hf hx (by rw [hi]; exact registered_xml x) ho hbi hbo hab hm hr
  obtain ⟨dbs', out', db', r', p1, p2, p3, p4, p6, p5⟩ := merge_report hf hx (by rw [hi']; exact registered_xml x) ho' hbi' hbo' hab' hm' hr'
  rw [hmore] at p1
  have hst := reads_files p1
  obtain ⟨e1, e2, rfl, p1, p1'⟩ := reads_append p1
  cases reads_unique q1 p1
  obtain ⟨docs, hd⟩ := xml_documents q1
  obtain ⟨docs', hd'⟩ := xml_documents p1'
  obtain ⟨h1, h2⟩ := C119_xml_partial hf.env hf.env hd hd' (reads_files q1) hst q2 p2 q3 p3 q4 p4
  exact ⟨r, r', ⟨db, q6, q4⟩, ⟨db', p6, p4⟩, q5, p5, h1, h2⟩

/-- C119 for `merge` of YAML files and `report`, in exact arithmetic. -/
theorem C119_yaml_commands_partial {x : Ext} (hf : Spec.Faithful x) (hx : x.rd = id) {a a' : MergeArgs} {b b' : ReportArgs} {w w1 w2 w1' w2' : World}
    {more : List String} (hmore : a'.db = a.db ++ more)
    (hi : a.inputFormat = some "yaml") (ho : a.outputFormat.getD "xml" = "xml") (hbi : b.inputFormat.getD "xml" = "xml")
    (hbo : b.outputFormat.getD "txt" = "txt") (hab : b.db = a.out)
    (hi' : a'.inputFormat = some "yaml") (ho' : a'.outputFormat.getD "xml" = "xml") (hbi' : b'.inputFormat.getD "xml" = "xml")
    (hbo' : b'.outputFormat.getD "txt" = "txt") (hab' : b'.db = a'.out)
    (hc : ∀ p ∈ a'.db, ∀ d db, Spec.HoldsYaml x (w.files p) d db → CountsFine d)
    (hm : ucisMerge x a w = (.ok (), w1)) (hr : ucisReport x b w1 = (.ok (), w2))
    (hm' : ucisMerge x a' w = (.ok (), w1')) (hr' : ucisReport x b' w1' = (.ok (), w2')) :
    ∃ r r', Spec.ReportsOn x w1 b.db r ∧ Spec.ReportsOn x w1' b'.db r' ∧ w2 = Spec.Reported w1 b.db b.out (Spec.txtOf x r) ∧ w2' = Spec.Reported w1' b'.db b'.out (Spec.txtOf x r') ∧
      (∀ g ∈ r.covergroups, ∃ g' ∈ r'.covergroups, LineKept g g') ∧ (SameShape r r' → ReportKept r r') := by
  obtain ⟨dbs, out, db, r, q1, q2, q3, q4, q6, q5⟩ := merge_report hf hx (by rw [hi]; exact registered_yaml x) ho hbi hbo hab hm hr
  obtain ⟨dbs', out', db', r', p1, p2, p3, p4, p6, p5⟩ := merge_report hf hx (by rw [hi']; exact registered_yaml x) ho' hbi' hbo' hab' hm' hr'
  rw [hmore] at p1 hc
  obtain ⟨e1, e2, rfl, p1, p1'⟩ := reads_append p1
  cases reads_unique q1 p1
  obtain ⟨docs, hh, hd⟩ := yaml_documents q1
  obtain ⟨docs', hh', hd'⟩ := yaml_documents p1'
  have hcf : ∀ d ∈ docs ++ docs', CountsFine d := by
    intro d hd
    obtain ⟨p, hp, db, h⟩ := Yaml.exists_left (List.rel_append hh hh') hd
    exact hc p hp d db h
  obtain ⟨h1, h2⟩ := C119_yaml_partial hf.env hf.env hd hd' hcf q2 p2 q3 p3 q4 p4
  exact ⟨r, r', ⟨db, q6, q4⟩, ⟨db', p6, p4⟩, q5, p5, h1, h2⟩

/-- If the merges of one file and of two files can be stored and reported, the commands run. -/
theorem two_runs {x : Ext} (hf : Spec.Faithful x) (hx : x.rd = id) {f : Option String} {i : DbDesc Database} {w : World} {d : Database}
    (hi : Spec.Registered (defaultRgy x) (f.getD "xml") i) (hw : w.writable "m.xml" = true) (hread : ∀ p, i.fmtIf.read (w.files p) = .ok d)
    (h : ((Merge.mergeDb ⟨emptyDb, [], []⟩ [d]).bind (Xml.throughFile x.env)).bind (fun d => Report.build id d.root) = .ok r)
    (h' : ((Merge.mergeDb ⟨emptyDb, [], []⟩ [d, d]).bind (Xml.throughFile x.env)).bind (fun d => Report.build id d.root) = .ok r') :
    ∃ w1 w2 w1' w2', ucisMerge x ⟨f, none, ["a"], "m.xml"⟩ w = (.ok (), w1) ∧ ucisReport x ⟨none, none, "m.xml", none⟩ w1 = (.ok (), w2) ∧
      ucisMerge x ⟨f, none, ["a", "b"], "m.xml"⟩ w = (.ok (), w1') ∧ ucisReport x ⟨none, none, "m.xml", none⟩ w1' = (.ok (), w2') := by
  obtain ⟨e, h, hb⟩ := Ex.bind_ok.1 h
  obtain ⟨e', h', hb'⟩ := Ex.bind_ok.1 h'
  obtain ⟨o, c, m1, m2, m3⟩ := stored_parts h
  obtain ⟨o', c', m1', m2', m3'⟩ := stored_parts h'
  obtain ⟨w1, k1, k2⟩ := merge_stores hf (a := ⟨f, none, ["a"], "m.xml"⟩) hi rfl hw (.cons (hread "a") .nil) m1 m2 m3
  obtain ⟨w1', k1', k2'⟩ := merge_stores hf (a := ⟨f, none, ["a", "b"], "m.xml"⟩) hi rfl hw (.cons (hread "a") (.cons (hread "b") .nil)) m1' m2' m3'
  rw [← hx] at hb hb'
  exact ⟨w1, _, w1', _, k1, (C87_report_txt _ _ _ _ rfl).2 ⟨⟨_, _, _, _⟩, e, _, registered_xml _, k2, hb, fun _ hp => (nomatch hp), rfl⟩,
    k1', (C87_report_txt _ _ _ _ rfl).2 ⟨⟨_, _, _, _⟩, e', _, registered_xml _, k2', hb', fun _ hp => (nomatch hp), rfl⟩⟩

/-- The hypotheses of `C119_commands_partial` are met. -/
example : ∃ (x : Ext) (w w1 w2 w1' w2' : World), Spec.Faithful x ∧ x.rd = id ∧
    ucisMerge x ⟨none, none, ["a"], "m.xml"⟩ w = (.ok (), w1) ∧ ucisReport x ⟨none, none, "m.xml", none⟩ w1 = (.ok (), w2) ∧
    ucisMerge x ⟨none, none, ["a", "b"], "m.xml"⟩ w = (.ok (), w1') ∧ ucisReport x ⟨none, none, "m.xml", none⟩ w1' = (.ok (), w2') := by
  obtain ⟨doc, db, hw, hr, hp⟩ := exPlain_doc
  have hx : xmlWrite exFaithful exPlainDb = (exFaithful.showXml doc, .ok ()) := xmlWrite_ok.2 ⟨doc, hw, rfl⟩
  have ht : Xml.throughFile Xml.exEnv2 exPlainDb = .ok db := by unfold Xml.throughFile; rw [hw]; exact hr
  let w : World := { exWorld with files := fun _ => some (exFaithful.showXml doc) }
  have hread : ∀ p, xmlRead exFaithful (w.files p) = .ok db := by
    intro p
    show xmlRead exFaithful (some (exFaithful.showXml doc)) = _
    rw [xmlRead_written exFaithful_ok hx]
    exact ht
  have s1 : ((Xml.throughFile Xml.exEnv2 exPlainDb).bind (fun db => ((Merge.mergeDb ⟨emptyDb, [], []⟩ [db]).bind (Xml.throughFile Xml.exEnv2)).bind
      (fun d => Report.build id d.root))).isOk = true := by
    decide +kernel
  have s2 : ((Xml.throughFile Xml.exEnv2 exPlainDb).bind (fun db => ((Merge.mergeDb ⟨emptyDb, [], []⟩ [db, db]).bind (Xml.throughFile Xml.exEnv2)).bind
      (fun d => Report.build id d.root))).isOk = true := by
    decide +kernel
  rw [ht] at s1 s2
  obtain ⟨r, s1⟩ := exists_of_isOk s1
  obtain ⟨r', s2⟩ := exists_of_isOk s2
  obtain ⟨w1, w2, w1', w2', h⟩ := two_runs exFaithful_ok rfl (f := none) (w := w) (registered_xml exFaithful) rfl hread s1 s2
  exact ⟨exFaithful, w, w1, w2, w1', w2', exFaithful_ok, rfl, h⟩

/-- The hypotheses of `C119_yaml_commands_partial` are met. -/
example : ∃ (x : Ext) (w w1 w2 w1' w2' : World), Spec.Faithful x ∧ x.rd = id ∧
    (∀ p ∈ ["a", "b"], ∀ d db, Spec.HoldsYaml x (w.files p) d db → CountsFine d) ∧
    ucisMerge x ⟨some "yaml", none, ["a"], "m.xml"⟩ w = (.ok (), w1) ∧ ucisReport x ⟨none, none, "m.xml", none⟩ w1 = (.ok (), w2) ∧
    ucisMerge x ⟨some "yaml", none, ["a", "b"], "m.xml"⟩ w = (.ok (), w1') ∧ ucisReport x ⟨none, none, "m.xml", none⟩ w1' = (.ok (), w2') := by
  let w : World := { exWorld with files := fun _ => some [1] }
  have s1 : ((Yaml.loadDoc Yaml.exPlain).bind (fun db => ((Merge.mergeDb ⟨emptyDb, [], []⟩ [db]).bind (Xml.throughFile Xml.exEnv2)).bind
      (fun d => Report.build id d.root))).isOk = true := by
    decide +kernel
  have s2 : ((Yaml.loadDoc Yaml.exPlain).bind (fun db => ((Merge.mergeDb ⟨emptyDb, [], []⟩ [db, db]).bind (Xml.throughFile Xml.exEnv2)).bind
      (fun d => Report.build id d.root))).isOk = true := by
    decide +kernel
  obtain ⟨db, r, h1, h2⟩ := exYaml_load
  rw [← Yaml.load_encode, h1] at s1 s2
  have hread : ∀ p, (yamlIf exYaml).read (w.files p) = .ok db := fun p => h1
  obtain ⟨r, s1⟩ := exists_of_isOk s1
  obtain ⟨r', s2⟩ := exists_of_isOk s2
  obtain ⟨w1, w2, w1', w2', h⟩ := two_runs exYaml_ok rfl (f := some "yaml") (w := w) (registered_yaml exYaml) rfl hread s1 s2
  refine ⟨exYaml, w, w1, w2, w1', w2', exYaml_ok, rfl, ?_, h⟩
  rintro p _ d db' ⟨c, j, _, hj, hs, hl⟩
  cases Except.ok.inj hj
  rw [← Yaml.dec_says hs, Yaml.dec_says (Yaml.says_encode Yaml.exPlain)]
  decide +kernel

end Tools
end Verif
