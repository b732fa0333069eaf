import Verif.PipeMerge
import Verif.YamlXml
/-!
# Properties C102, C103 and C104 for the `merge` and `convert` commands
-/

namespace Verif
namespace Tools

namespace Spec

/-- The file holds a YAML document that says `d` and that the library loads as `db`. -/
def HoldsYaml (x : Ext) (content : Option Bytes) (d : Yaml.YDoc) (db : Database) : Prop :=
  ∃ c j, content = some c ∧ x.parseYaml c = .ok j ∧ Verif.Spec.LoadedFrom j d db

end Spec

theorem registered_yaml (x : Ext) : Spec.Registered (defaultRgy x) "yaml"
    ⟨"yaml", 6, "Reads coverage data from a YAML file", yamlIf x⟩ := by
  unfold Spec.Registered; rw [defaultRgy_dbs]; rfl

theorem yaml_read {x : Ext} {content : Option Bytes} {d : Yaml.YDoc} {db : Database} (h : Spec.HoldsYaml x content d db) :
    (yamlIf x).read content = .ok db := by
  obtain ⟨c, j, rfl, h1, h2⟩ := h
  simp only [yamlIf, h1]
  exact h2.2

theorem yaml_reads {x : Ext} {files : String → Option Bytes} {ps : List String} {ds : List Yaml.YDoc} {dbs : List Database}
    (h : List.Forall₂ (fun p (e : Yaml.YDoc × Database) => Spec.HoldsYaml x (files p) e.1 e.2) ps (ds.zip dbs)) (hl : ds.length = dbs.length) :
    Spec.Reads (yamlIf x) files ps dbs ∧ List.Forall₂ (fun d s => ∃ j, Verif.Spec.LoadedFrom j d s) ds dbs := by
  induction ps generalizing ds dbs with
  | nil =>
    cases ds with
    | nil => cases dbs with
      | nil => exact ⟨.nil, .nil⟩
      | cons => cases hl
    | cons => cases dbs with
      | nil => cases hl
      | cons => cases h
  | cons p t ih =>
    cases ds with
    | nil => cases h
    | cons d ds => cases dbs with
      | nil => cases h
      | cons b dbs =>
        cases h with
        | cons h1 h2 =>
          obtain ⟨a1, a2⟩ := ih h2 (by simpa using hl)
          exact ⟨.cons (yaml_read h1) a1, .cons (by obtain ⟨_, j, _, _, h⟩ := h1; exact ⟨j, h⟩) a2⟩

/-- A successful `merge` to XML: what the output file gives when read is the merged database written and read. -/
theorem merge_to_xml {x : Ext} (hf : Spec.Faithful x) {a : MergeArgs} {w w' : World} {i : DbDesc Database}
    (hi : Spec.Registered (defaultRgy x) (a.inputFormat.getD "xml") i) (ho : a.outputFormat.getD "xml" = "xml")
    (hm : ucisMerge x a w = (.ok (), w')) :
    ∃ dbs out, Spec.Reads i.fmtIf w.files a.db dbs ∧ Merge.mergeDb ⟨emptyDb, [], []⟩ dbs = .ok out ∧
      xmlRead x (w'.files a.out) = Xml.throughFile x.env out := by
  obtain ⟨o, res, wr, text, ⟨h1, i', dbs', new, h2, h3, h4, h5⟩, h6, _, h7, rfl⟩ := (C74_merge_success _ _ a w w').1 hm
  rw [ho] at h1
  cases (registered_xml x).symm.trans h1
  cases hi.symm.trans h2
  cases h4
  cases h6
  refine ⟨dbs', res, h3, h5, ?_⟩
  simp only [Spec.Written, if_true]
  exact xmlRead_written hf h7

/-- A merge whose result can be stored succeeds. -/
theorem merge_stores {x : Ext} (hf : Spec.Faithful x) {a : MergeArgs} {w : World} {i : DbDesc Database}
    (hi : Spec.Registered (defaultRgy x) (a.inputFormat.getD "xml") i) (ho : a.outputFormat.getD "xml" = "xml")
    (hw : w.writable a.out = true) {dbs : List Database} {out db' : Database} {doc : Xml.Elem} (hr : Spec.Reads i.fmtIf w.files a.db dbs)
    (hm : Merge.mergeDb ⟨emptyDb, [], []⟩ dbs = .ok out) (h1 : Xml.write x.env out = .ok doc) (h2 : Xml.throughFile x.env out = .ok db') :
    ∃ w', ucisMerge x a w = (.ok (), w') ∧ xmlRead x (w'.files a.out) = .ok db' := by
  have hx : xmlWrite x out = (x.showXml doc, .ok ()) := xmlWrite_ok.2 ⟨doc, h1, rfl⟩
  refine ⟨Spec.Written w a.db a.out (x.showXml doc), (C74_merge_success _ _ a w _).2
    ⟨_, out, xmlWrite x, _, ⟨by rw [ho]; exact registered_xml x, _, dbs, _, hi, hr, rfl, hm⟩, rfl, hw, hx, rfl⟩, ?_⟩
  simp only [Spec.Written, if_true]
  rw [xmlRead_written hf hx, h2]

/-- **C102** (command). `merge --input-format yaml` on files with storable documents succeeds if the output can be opened, and the
XML output can be read by the library. -/
theorem C102_merge_command {x : Ext} (hf : Spec.Faithful x) {a : MergeArgs} {w : World} (hi : a.inputFormat = some "yaml")
    (ho : a.outputFormat.getD "xml" = "xml") (hne : a.db ≠ []) (hw : w.writable a.out = true) {ds : List Yaml.YDoc} {dbs : List Database}
    (hl : ds.length = dbs.length)
    (h : List.Forall₂ (fun p (e : Yaml.YDoc × Database) => Spec.HoldsYaml x (w.files p) e.1 e.2) a.db (ds.zip dbs))
    (hs : ∀ d ∈ ds, Verif.Spec.StorableDoc d) :
    ∃ w' db', ucisMerge x a w = (.ok (), w') ∧ xmlRead x (w'.files a.out) = .ok db' := by
  obtain ⟨h1, h2⟩ := yaml_reads h hl
  have hd : ds ≠ [] := by
    rintro rfl
    rw [List.zip_nil_left] at h
    exact hne (List.forall₂_nil_right_iff.1 h)
  obtain ⟨out, doc, db', e1, e2, e3⟩ := Yaml.C102_stored hf.env hd h2 hs
  obtain ⟨w', q1, q2⟩ := merge_stores hf (i := ⟨_, _, _, _⟩) (by rw [hi]; exact registered_yaml x) ho hw h1 e1 e2 e3
  exact ⟨w', db', q1, q2⟩

/-- **C102** (command). After a successful `merge --input-format yaml`, the count of every bin of every coverpoint and cross in the XML
output is the sum over the input documents. -/
theorem C102_counts_command {x : Ext} (hf : Spec.Faithful x) {a : MergeArgs} {w w' : World} {db' : Database} (hi : a.inputFormat = some "yaml")
    (ho : a.outputFormat.getD "xml" = "xml") (hm : ucisMerge x a w = (.ok (), w')) (hr : xmlRead x (w'.files a.out) = .ok db')
    {ds : List Yaml.YDoc} {dbs : List Database} (hl : ds.length = dbs.length)
    (h : List.Forall₂ (fun p (e : Yaml.YDoc × Database) => Spec.HoldsYaml x (w.files p) e.1 e.2) a.db (ds.zip dbs))
    (hn : ∀ d ∈ ds, Verif.Spec.InstancedDoc d) (hu : ∀ d ∈ ds, Verif.Spec.UniqueDoc d) (g c n : String) {k : Nat} (hk : Verif.Spec.IsKind k)
    (b : String) :
    Verif.Spec.total [(ST.INSTANCE, "cg_inst"), (ST.COVERGROUP, g), (ST.COVERINSTANCE, c), (ST.COVERPOINT, n)] k b db'.root
        = (ds.map (Verif.Spec.docBinCount g c n k b)).sum ∧
    Verif.Spec.total [(ST.INSTANCE, "cg_inst"), (ST.COVERGROUP, g), (ST.COVERINSTANCE, c), (ST.CROSS, n)] k b db'.root
        = if k = CT.CVGBIN then (ds.map (Verif.Spec.docCrossBinCount g c n b)).sum else 0 := by
  obtain ⟨h1, h2⟩ := yaml_reads h hl
  obtain ⟨dbs', out, q1, q2, q3⟩ := merge_to_xml hf (i := ⟨_, _, _, _⟩) (by rw [hi]; exact registered_yaml x) ho hm
  cases reads_unique q1 h1
  exact Yaml.C102_counts hf.env h2 hn hu q2 (q3.symm.trans hr) g c n hk b

theorem convert_iff_merge {x : Ext} {a : ConvertArgs} {w w' : World} : ucisConvert x a w = (.ok (), w') ↔
    ucisMerge x ⟨a.inputFormat, a.outputFormat, [a.input], a.out⟩ w = (.ok (), w') := by
  obtain ⟨h1, h2⟩ := convert_eq_merge (defaultRgy x) Merge.mergeDb a w
  unfold ucisConvert ucisMerge
  rw [Prod.ext_iff, Prod.ext_iff, h1, h2]

/-- **C103, partial** (command). `convert --input-format yaml` to XML does not change the reported figures of a document without ignore
and illegal bins, covergroup weights, thresholds and repeated names. -/
theorem C103_convert_command_partial {x : Ext} (hf : Spec.Faithful x) {a : ConvertArgs} {w w' : World} {d : Yaml.YDoc} {db db' : Database}
    {r : Report.Rpt} (hi : a.inputFormat = some "yaml") (ho : a.outputFormat.getD "xml" = "xml")
    (h : Spec.HoldsYaml x (w.files a.input) d db) (hn : Verif.Spec.InstancedDoc d) (hu : Verif.Spec.DistinctDoc d)
    (hp : Verif.Spec.PlainDoc d) (hm : ucisConvert x a w = (.ok (), w')) (hr : xmlRead x (w'.files a.out) = .ok db')
    (hb : Report.build id db.root = .ok r) :
    ∃ r', Report.build id db'.root = .ok r' ∧ r'.coverage = r.coverage ∧ List.Forall₂ Verif.Spec.SameFigures r.covergroups r'.covergroups := by
  obtain ⟨dbs', out, q1, q2, q3⟩ := merge_to_xml hf (i := ⟨_, _, _, _⟩) (by rw [hi]; exact registered_yaml x) ho (convert_iff_merge.1 hm)
  cases reads_unique q1 (f := yamlIf x) (.cons (yaml_read h) .nil)
  obtain ⟨_, j, _, _, hl⟩ := h
  exact Yaml.C103_convert_partial hf.env hl hn hu hp q2 (q3.symm.trans hr) hb

/-- **C104, partial** (command). `convert` from XML to XML does not change the reported figures of a file without repeated names in
which the kind of a coverpoint bin does not differ between the cover-instances. -/
theorem C104_convert_command_partial {x : Ext} (hf : Spec.Faithful x) {a : ConvertArgs} {w w' : World} {db db' : Database} {r : Report.Rpt}
    (hi : a.inputFormat.getD "xml" = "xml") (ho : a.outputFormat.getD "xml" = "xml") (h : xmlRead x (w.files a.input) = .ok db)
    (hs : Verif.Spec.Sole db.root) (hu : Verif.Spec.UniqueNames db.root)
    {K : String → String → String → String → Nat} (hK : Verif.Spec.KindsBy K db.root)
    (hm : ucisConvert x a w = (.ok (), w')) (hr : xmlRead x (w'.files a.out) = .ok db') (hb : Report.build id db.root = .ok r) :
    ∃ r', Report.build id db'.root = .ok r' ∧ r'.coverage = r.coverage ∧ List.Forall₂ Verif.Spec.SameFigures r.covergroups r'.covergroups := by
  obtain ⟨dbs', out, q1, q2, q3⟩ := merge_to_xml hf (i := ⟨_, _, _, _⟩) (by rw [hi]; exact registered_xml x) ho (convert_iff_merge.1 hm)
  cases reads_unique q1 (f := xmlIf x) (.cons h .nil)
  obtain ⟨doc, _, hdoc⟩ := xmlRead_ok.1 h
  refine Verif.C81_merged_figures_partial hf.env (flt := x.env.flt) (srcs := [db]) (K := K) ?_ (by simpa using hu) (by simpa using hK) q2 (q3.symm.trans hr) ?_
  · intro s hs
    rw [List.mem_singleton.1 hs]
    exact ⟨doc, (factoryRead_ok.1 hdoc).2⟩
  · unfold Merge.mergeDb at q2
    cases hm' : Merge.merge emptyDb ([db].map (·.root)) with
    | error e => rw [hm'] at q2; cases q2
    | ok y =>
      rw [hm'] at q2
      cases q2
      exact (Merge.C104_single_report hs hm' id r).2 hb

/-! ## Examples -/

/-- A faithful environment in which every YAML file holds the document of the example. -/
def exYaml : Ext := { exFaithful with parseYaml := fun _ => .ok (Yaml.encDoc Yaml.exPlain) }

theorem exYaml_ok : Spec.Faithful exYaml where
  env := exFaithful_ok.env
  shows := exFaithful_ok.shows
  parses := exFaithful_ok.parses

theorem exYaml_load : ∃ db r, Yaml.load (Yaml.encDoc Yaml.exPlain) = .ok db ∧ Report.build id db.root = .ok r := by
  rw [Yaml.load_encode]
  have h : (do let db ← Yaml.loadDoc Yaml.exPlain; Report.build id db.root : Except Err _).isOk = true := by decide +kernel
  obtain ⟨r, h⟩ := exists_of_isOk h
  obtain ⟨db, h1, h2⟩ := Ex.bind_ok.1 h
  exact ⟨db, r, h1, h2⟩

/-- The hypotheses of the commands' theorems C102 and C103 are met: two files merged, one file converted. -/
example : ∃ (a : MergeArgs) (b : ConvertArgs) (w w' w'' : World) (ds : List Yaml.YDoc) (dbs : List Database) (db' db'' : Database) (r : Report.Rpt),
    a.db.length = 2 ∧ a.inputFormat = some "yaml" ∧ b.inputFormat = some "yaml" ∧ ds.length = dbs.length ∧
    List.Forall₂ (fun p (e : Yaml.YDoc × Database) => Spec.HoldsYaml exYaml (w.files p) e.1 e.2) a.db (ds.zip dbs) ∧
    (∀ d ∈ ds, Verif.Spec.StorableDoc d ∧ Verif.Spec.InstancedDoc d ∧ Verif.Spec.DistinctDoc d ∧ Verif.Spec.PlainDoc d) ∧
    ucisMerge exYaml a w = (.ok (), w') ∧ xmlRead exYaml (w'.files a.out) = .ok db' ∧
    Spec.HoldsYaml exYaml (w.files b.input) (ds.headD ⟨none⟩) (dbs.headD ⟨emptyDb, [], []⟩) ∧
    ucisConvert exYaml b w = (.ok (), w'') ∧ xmlRead exYaml (w''.files b.out) = .ok db'' ∧
    Report.build id (dbs.headD ⟨emptyDb, [], []⟩).root = .ok r := by
  obtain ⟨db, r, h1, h2⟩ := exYaml_load
  have hh : Spec.HoldsYaml exYaml (some [1]) Yaml.exPlain db := ⟨[1], _, rfl, rfl, Yaml.says_encode _, h1⟩
  let w : World := { exWorld with files := fun _ => some [1] }
  obtain ⟨w', db', m1, m2⟩ := C102_merge_command exYaml_ok (a := ⟨some "yaml", none, ["a", "b"], "c"⟩) (w := w) rfl rfl (by simp) rfl
    (ds := [Yaml.exPlain, Yaml.exPlain]) (dbs := [db, db]) rfl (.cons hh (.cons hh .nil)) (by simpa using Yaml.exPlain_storable)
  obtain ⟨w'', db'', n1, n2⟩ := C102_merge_command exYaml_ok (a := ⟨some "yaml", none, ["a"], "c"⟩) (w := w) rfl rfl (by simp) rfl
    (ds := [Yaml.exPlain]) (dbs := [db]) rfl (.cons hh .nil) (by simpa using Yaml.exPlain_storable)
  refine ⟨⟨some "yaml", none, ["a", "b"], "c"⟩, ⟨some "yaml", none, "a", "c"⟩, w, w', w'', [Yaml.exPlain, Yaml.exPlain], [db, db], db', db'', r,
    rfl, rfl, rfl, rfl, .cons hh (.cons hh .nil), ?_, m1, m2, hh, convert_iff_merge.2 n1, n2, h2⟩
  intro d hd
  simp only [List.mem_cons, List.not_mem_nil, or_false, or_self] at hd
  subst hd
  exact ⟨Yaml.exPlain_storable, by unfold Verif.Spec.InstancedDoc; decide +kernel, Yaml.exPlain_unique, Yaml.exPlain_plain⟩

/-- A database with two covergroups, one not covered. -/
def exTwoDb : Database where
  root := { emptyDb with children := [mkInstance "top" SrcInfo.none 1 none
    [mkCovergroup "cg" SrcInfo.none 1 [mkCoverInst "i" SrcInfo.none 1 [mkCoverpoint "a" SrcInfo.none 1 [mkBin "x" CT.CVGBIN 1 1, mkBin "y" CT.CVGBIN 1 0]]],
     mkCovergroup "ch" SrcInfo.none 1 [mkCoverInst "i" SrcInfo.none 1 [mkCoverpoint "a" SrcInfo.none 1 [mkBin "x" CT.CVGBIN 1 0]]]]] }
  hist := []
  files := []

/-- The hypotheses of `C104_convert_command_partial` are met by a file with two covergroups. -/
example : ∃ (b : ConvertArgs) (w w' : World) (db db' : Database) (r : Report.Rpt),
    xmlRead exFaithful (w.files b.input) = .ok db ∧ Verif.Spec.Sole db.root ∧ Verif.Spec.UniqueNames db.root ∧
    Verif.Spec.KindsBy (fun _ _ _ _ => CT.CVGBIN) db.root ∧ ucisConvert exFaithful b w = (.ok (), w') ∧
    xmlRead exFaithful (w'.files b.out) = .ok db' ∧ Report.build id db.root = .ok r ∧ r.covergroups ≠ [] := by
  have h : (do
      let db ← Xml.throughFile Xml.exEnv2 exTwoDb
      let o ← Merge.mergeDb ⟨emptyDb, [], []⟩ [db]
      let db' ← Xml.throughFile Xml.exEnv2 o
      let r ← Report.build id db.root
      return decide (Verif.Spec.Sole db.root ∧ Verif.Spec.UniqueNames db.root ∧
        Verif.Spec.KindsBy (fun _ _ _ _ => CT.CVGBIN) db.root ∧ r.covergroups.length = 2) : Except Err Bool) = .ok true := by decide +kernel
  obtain ⟨db, h1, h⟩ := Ex.bind_ok.1 h
  obtain ⟨o, h2, h⟩ := Ex.bind_ok.1 h
  obtain ⟨db', h3, h⟩ := Ex.bind_ok.1 h
  obtain ⟨r, h4, h⟩ := Ex.bind_ok.1 h
  obtain ⟨hs, hu, hk, hl⟩ := of_decide_eq_true (Except.ok.inj h)
  obtain ⟨doc, hd, _⟩ := Ex.bind_ok.1 h1
  obtain ⟨doc', hd', _⟩ := Ex.bind_ok.1 h3
  have hx : xmlWrite exFaithful exTwoDb = (exFaithful.showXml doc, .ok ()) := xmlWrite_ok.2 ⟨doc, hd, rfl⟩
  have hrd : xmlRead exFaithful (some (exFaithful.showXml doc)) = .ok db := (xmlRead_written exFaithful_ok hx).trans h1
  obtain ⟨w', n1, n2⟩ := merge_stores exFaithful_ok (a := ⟨none, none, ["a"], "c"⟩) (w := { exWorld with files := fun _ => some (exFaithful.showXml doc) })
    (registered_xml exFaithful) rfl rfl (.cons hrd .nil) h2 hd' h3
  exact ⟨⟨none, none, "a", "c"⟩, _, w', db, db', r, hrd, hs, hu, hk, convert_iff_merge.2 n1, n2, h4, by intro e; rw [e] at hl; cases hl⟩

end Tools
end Verif
