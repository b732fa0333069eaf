import Verif.Pipeline
import Verif.ToolsThms
import Verif.YamlThms3
import Verif.XmlThms3
import Verif.XsdThms2
import Verif.XmlLayout
/-!
# Properties of the registered formats: C75 (refutation), C78
-/

namespace Verif
namespace Tools
open Cmd

/-! ## The registry of the program -/

theorem defaultRgy_dbs (x : Ext) : (defaultRgy x).dbs =
    [("xml", ⟨"xml", 6, "Supports reading and writing UCIS XML interchange", xmlIf x⟩),
      ("libucis", ⟨"libucis", 3, "Reads coverage data via an implementation of the UCIS C API", libIf⟩),
      ("yaml", ⟨"yaml", 6, "Reads coverage data from a YAML file", yamlIf x⟩)] := by
  simp [defaultRgy, Rgy.addDatabaseFormat, Rgy.addReportFormat, Rgy.init, Dict.set]

theorem defaultRgy_rpts (x : Ext) : (defaultRgy x).rpts =
    [("json", ⟨"json", rptStream, "Produces a machine-readable JSON coverage report", jsonRptIf x⟩),
      ("txt", ⟨"txt", rptStream, "Produces a human-readable textual coverage report", txtRptIf x⟩)] := by
  simp [defaultRgy, Rgy.addDatabaseFormat, Rgy.addReportFormat, Rgy.init, Dict.set]

/-! ## C75 with the registered formats -/

/-- One covergroup whose name is a control character, which YAML can express (`"\x01"`) and XML cannot. -/
def badDoc : Yaml.YDoc := ⟨some (some [⟨"\x01", none, some [⟨"i", some [⟨"a", none, [⟨"x", 1⟩], none, none⟩], none⟩]⟩])⟩

/-- An environment in which the file content `[1]` is the YAML text of `badDoc`. -/
def exExt : Ext where
  modules := ⟨true, true⟩
  gunzip := fun _ => .error .valueError
  unlz4 := fun _ => .error .valueError
  parseXml := fun _ => .error .valueError
  showXml := fun _ => [60]
  parseYaml := fun b => if b = [1] then .ok (Yaml.encDoc badDoc) else .error .valueError
  encode := fun _ => []
  showJson := fun _ => []
  env := Xml.exEnv
  rd := id

/-- The input, and an existing output file with content `[2, 3]`. -/
def exWorld : World where
  files := fun p => if p = "in.yaml" then some [1] else if p = "out.xml" then some [2, 3] else none
  isDir := fun _ => false
  writable := fun _ => true
  stdout := []
  log := []

/-- The database loaded from `badDoc`. -/
theorem badDoc_loads : ∃ db res, Yaml.load (Yaml.encDoc badDoc) = .ok db ∧ Merge.mergeDb ⟨emptyDb, [], []⟩ [db] = .ok res ∧
    ∃ e, Xml.write Xml.exEnv res = .error e := by
  refine ⟨_, _, (Yaml.load_encode _).trans rfl, rfl, .valueError, ?_⟩
  rfl

/-- C75 fails: merging (or converting) a YAML file onto an existing XML file empties the XML file and raises. -/
theorem C75_output_kept_refuted :
    ¬ Spec.OutputSafe (defaultRgy exExt) Merge.mergeDb ∧
    (∃ e, (ucisMerge exExt ⟨some "yaml", none, ["in.yaml"], "out.xml"⟩ exWorld).1 = .error e) ∧
    (ucisMerge exExt ⟨some "yaml", none, ["in.yaml"], "out.xml"⟩ exWorld).2.files "out.xml" = some [] := by
  obtain ⟨db, res, h1, h2, e, h3⟩ := badDoc_loads
  have hm : Spec.Merged (defaultRgy exExt) Merge.mergeDb "yaml" "xml" ["in.yaml"] exWorld.files
      ⟨"xml", 6, "Supports reading and writing UCIS XML interchange", xmlIf exExt⟩ res := by
    refine ⟨?_, ⟨"yaml", 6, "Reads coverage data from a YAML file", yamlIf exExt⟩, [db], ⟨emptyDb, [], []⟩, ?_, ?_, rfl, h2⟩
    · unfold Spec.Registered; rw [defaultRgy_dbs]; rfl
    · unfold Spec.Registered; rw [defaultRgy_dbs]; rfl
    · exact .cons (by simp [yamlIf, exExt, exWorld]; exact h1) .nil
  have hw : xmlWrite exExt res = ([], .error e) := by
    unfold xmlWrite
    rw [show exExt.env = Xml.exEnv from rfl, h3]
  rcases merge_ends (defaultRgy exExt) Merge.mergeDb ⟨some "yaml", none, ["in.yaml"], "out.xml"⟩ exWorld with
    ⟨_, _, _, _, h | ⟨o', res', hm', h | h⟩⟩ | ⟨o', res', wr', h1', h2', _, h4'⟩
  · exact absurd hm (h _ _)
  · obtain ⟨rfl, rfl⟩ := merged_unique hm hm'
    obtain ⟨_, h⟩ := h
    cases h
  · cases h
  · obtain ⟨rfl, rfl⟩ := merged_unique hm h1'
    cases h2'
    rw [hw] at h4'
    refine ⟨fun hall => ?_, ⟨e, congrArg Prod.fst h4'⟩, ?_⟩
    · have := hall _ _ _ _ h4'
      simp [Spec.Written, exWorld] at this
    · unfold ucisMerge
      rw [h4']
      simp [Spec.Written]

/-! ## C78: the announced capabilities -/

/-- A format can do what its flags announce (Create 1, Read 2, Write 4): it creates a database; some file is read; and some
database is written. -/
def Spec.Capable {D : Type} (d : DbDesc D) : Prop :=
  (d.flags.testBit 0 = true → ∃ db, d.fmtIf.create = .ok db) ∧
  (d.flags.testBit 1 = true → ∃ content db, d.fmtIf.read (some content) = .ok db) ∧
  (d.flags.testBit 2 = true → ∃ wr db text, d.fmtIf.write = .ok wr ∧ wr db = (text, .ok ()))

/-- C78 fails for two of the three formats, whatever the other libraries do: `libucis` can neither create nor read, `yaml`
cannot write. -/
theorem C78_capabilities_refuted (x : Ext) :
    (∃ d, (defaultRgy x).getDatabaseDesc "libucis" = .ok d ∧ d.flags.testBit 0 = true ∧ d.flags.testBit 1 = true ∧
      (∀ db, d.fmtIf.create ≠ .ok db) ∧ ∀ c db, d.fmtIf.read c ≠ .ok db) ∧
    (∃ d, (defaultRgy x).getDatabaseDesc "yaml" = .ok d ∧ d.flags.testBit 2 = true ∧ ∀ wr, d.fmtIf.write ≠ .ok wr) ∧
    ∀ f ∈ ["libucis", "yaml"], ∀ d, (defaultRgy x).getDatabaseDesc f = .ok d → ¬ Spec.Capable d := by
  have hl : (defaultRgy x).getDatabaseDesc "libucis" = .ok
      ⟨"libucis", 3, "Reads coverage data via an implementation of the UCIS C API", libIf⟩ := by
    unfold Rgy.getDatabaseDesc; rw [defaultRgy_dbs]; rfl
  have hy : (defaultRgy x).getDatabaseDesc "yaml" = .ok ⟨"yaml", 6, "Reads coverage data from a YAML file", yamlIf x⟩ := by
    unfold Rgy.getDatabaseDesc; rw [defaultRgy_dbs]; rfl
  refine ⟨⟨_, hl, by decide, by decide, ?_, ?_⟩, ⟨_, hy, show Nat.testBit 6 2 = true by decide, ?_⟩, ?_⟩
  · intro db h; cases h
  · intro c db h; cases h
  · intro wr h; cases h
  · intro f hf d hd hc
    simp only [List.mem_cons, List.not_mem_nil, or_false] at hf
    rcases hf with rfl | rfl
    · rw [hl] at hd; cases hd
      obtain ⟨db, h⟩ := hc.1 (by decide)
      cases h
    · rw [hy] at hd; cases hd
      obtain ⟨wr, db, t, h, _⟩ := hc.2.2 (show Nat.testBit 6 2 = true by decide)
      cases h

/-- UTF-8. -/
def Spec.utf8 (t : List Char) : Bytes := t.flatMap String.utf8EncodeChar

/-- What is assumed of lxml and of text files: a document is written, in UTF-8, as one of the texts that stand for it, perhaps with white space added
between its elements, and in each text that stands for an element the parser finds that element. -/
structure Spec.Faithful (x : Ext) : Prop where
  env : GoodEnv x.env
  shows : ∀ doc, Verif.Spec.Textual doc → ∃ d t, Verif.Spec.LaidOut doc d ∧ Verif.Spec.DocText d t ∧ x.showXml doc = Spec.utf8 t
  parses : ∀ d t, Verif.Spec.DocText d t → x.parseXml (Spec.utf8 t) = .ok d

/-- Such libraries exist: the serialiser and the parser of `XmlLayout` and `XmlText` (for YAML and the reports nothing is assumed). -/
def exFaithful : Ext :=
  { exExt with
    showXml := fun d => Spec.utf8 (Xml.Text.showDoc d)
    parseXml := fun b =>
      match b.toByteArray.utf8Decode? with
      | none => .error .valueError
      | some t =>
        match Xml.Text.parse t.toList with
        | none => .error .valueError
        | some d => .ok d
    env := Xml.exEnv2 }

theorem exFaithful_ok : Spec.Faithful exFaithful where
  env := Xml.exEnv2_good
  shows := fun doc h => ⟨_, _, Xml.Text.lay_laid (some 0) doc h, Xml.Text.showDoc_text h, rfl⟩
  parses := fun d t h => by
    have : (Spec.utf8 t).toByteArray.utf8Decode? = some t.toArray := List.utf8Decode?_utf8Encode
    simp only [exFaithful, this, Xml.Text.parse_text h]

/-- A text that stands for an element does not look like a compressed file. -/
theorem openFile_text (m : Modules) {d : Xml.Elem} {t : List Char} (h : Verif.Spec.DocText d t) : openFile m (Spec.utf8 t) = some .plain := by
  obtain ⟨r, rfl⟩ := Xml.Text.doc_head h
  have : Spec.utf8 ('<' :: r) = 60 :: Spec.utf8 r := rfl
  simp [this, openFile]

theorem xmlWrite_ok {x : Ext} {db : Database} {text : Bytes} :
    xmlWrite x db = (text, .ok ()) ↔ ∃ doc, Xml.write x.env db = .ok doc ∧ text = x.showXml doc := by
  unfold xmlWrite
  cases Xml.write x.env db with
  | error e => simp
  | ok doc => simp [eq_comm]

/-- Reading the file that was written is `throughFile`. -/
theorem xmlRead_written {x : Ext} (hf : Spec.Faithful x) {db : Database} {text : Bytes} (h : xmlWrite x db = (text, .ok ())) :
    xmlRead x (some text) = Xml.throughFile x.env db := by
  obtain ⟨doc, hw, rfl⟩ := xmlWrite_ok.1 h
  obtain ⟨d, t, hl, ht, hs⟩ := hf.shows doc (Xml.write_textual hf.env.envOk hw)
  unfold xmlRead Xml.throughFile
  rw [hw, hs]
  simp only [openFile_text x.modules ht]
  show (x.parseXml (Spec.utf8 t) >>= fun doc => Xml.factoryRead x.env.flt doc) = Xml.factoryRead x.env.flt (Xml.reparse doc)
  rw [hf.parses d t ht]
  exact Xml.factoryRead_laid _ hl (Xml.write_crossLeaf hf.env.envOk hw)

instance (s : String) : Decidable (Verif.Spec.Printable s) := by unfold Verif.Spec.Printable; infer_instance
instance (k : Nat) : Decidable (Verif.Spec.IsKind k) := by unfold Verif.Spec.IsKind; infer_instance
instance (c : Scope) : Decidable (Verif.Spec.WritableCp c) := by unfold Verif.Spec.WritableCp; infer_instance
instance (c : Scope) : Decidable (Verif.Spec.WritableCross c) :=
  decidable_of_iff (Verif.Spec.Printable c.name ∧ c.cps ≠ none ∧ (∀ n ∈ c.cps.getD [], Verif.Spec.Printable n) ∧
    ∀ i ∈ Verif.Spec.covBins c, Verif.Spec.Printable i.name) (by
      unfold Verif.Spec.WritableCross
      cases c.cps <;> simp)
instance (g : Scope) : Decidable (Verif.Spec.WritableGroup g) := by unfold Verif.Spec.WritableGroup; infer_instance
instance (g : Scope) : Decidable (Verif.Spec.WritableCg g) := by unfold Verif.Spec.WritableCg; infer_instance
instance (g : Scope) : Decidable (Verif.Spec.WritableInst g) := by unfold Verif.Spec.WritableInst; infer_instance

/-- A database without history whose document is valid. -/
def exPlainDb : Database := { exSchemaDb with hist := [] }

theorem exPlainDb_written {env : Xml.Env} (he : GoodEnv env) :
    ∃ doc db', Xml.write env exPlainDb = .ok doc ∧ Xml.throughFile env exPlainDb = .ok db' := by
  have hw : ∃ doc, Xml.write env exPlainDb = .ok doc := by
    rw [C68_writer_accepts he exPlainDb (by unfold Verif.Spec.PlainTypes; decide +kernel)]
    exact ⟨by decide +kernel, by simp [exPlainDb], by decide +kernel⟩
  obtain ⟨doc, hw⟩ := hw
  obtain ⟨db', h⟩ := (C40_through_file_partial he hw).2 ⟨⟨by decide +kernel, by simp [exPlainDb], by decide +kernel⟩, by decide +kernel⟩
  exact ⟨doc, db', hw, h⟩

/-- **C78, partial.** Missing: the formats `libucis` and `yaml` (see `C78_capabilities_refuted`).  XML does what it announces. -/
theorem C78_xml_capable_partial (x : Ext) (hf : Spec.Faithful x) (d : DbDesc Database)
    (hd : (defaultRgy x).getDatabaseDesc "xml" = .ok d) : Spec.Capable d := by
  have hx : (defaultRgy x).getDatabaseDesc "xml" = .ok ⟨"xml", 6, "Supports reading and writing UCIS XML interchange", xmlIf x⟩ := by
    unfold Rgy.getDatabaseDesc; rw [defaultRgy_dbs]; rfl
  rw [hx] at hd
  cases hd
  obtain ⟨doc, db', h1, h2⟩ := exPlainDb_written hf.env
  have hw : xmlWrite x exPlainDb = (x.showXml doc, .ok ()) := xmlWrite_ok.2 ⟨doc, h1, rfl⟩
  refine ⟨fun _ => ⟨_, rfl⟩, fun _ => ⟨x.showXml doc, db', ?_⟩, fun _ => ⟨xmlWrite x, exPlainDb, x.showXml doc, rfl, hw⟩⟩
  show xmlRead x (some (x.showXml doc)) = .ok db'
  rw [xmlRead_written hf hw, h2]

/-- `merge` to a format other than XML always fails, and no file is changed. -/
theorem C78_only_xml_output (x : Ext) (a : MergeArgs) (w : World) (ho : a.outputFormat.getD "xml" ≠ "xml") :
    ∃ e w', ucisMerge x a w = (.error e, w') ∧ Spec.OnlyRead w w' := by
  rcases merge_ends (defaultRgy x) Merge.mergeDb a w with ⟨e, w', h1, h2, _⟩ | ⟨o, res, wr, ⟨h1, _, _, _, _, _, h2, _⟩, h3, _, _⟩
  · exact ⟨e, w', h1, h2⟩
  · exfalso
    unfold Spec.Registered at h1
    rw [defaultRgy_dbs] at h1
    have hx : ("xml" == a.outputFormat.getD "xml") = false := by simpa using fun e => ho e.symm
    by_cases hl : a.outputFormat.getD "xml" = "libucis"
    · rw [hl] at h1
      cases h1
      cases h2
    · by_cases hy : a.outputFormat.getD "xml" = "yaml"
      · rw [hy] at h1
        cases h1
        cases h3
      · simp [Dict.get?, Ne.symm ho, Ne.symm hl, Ne.symm hy] at h1

/-- An input in the format `libucis` is never read. -/
theorem C78_no_libucis_input (x : Ext) (a : MergeArgs) (w : World) (hi : a.inputFormat = some "libucis") (hne : a.db ≠ []) :
    ∃ e w', ucisMerge x a w = (.error e, w') ∧ Spec.OnlyRead w w' := by
  rcases merge_ends (defaultRgy x) Merge.mergeDb a w with ⟨e, w', h1, h2, _⟩ | ⟨o, res, wr, ⟨_, i, dbs, _, h1, h2, _⟩, _, _, _⟩
  · exact ⟨e, w', h1, h2⟩
  · exfalso
    unfold Spec.Registered at h1
    rw [defaultRgy_dbs, hi] at h1
    cases h1
    cases hd : a.db with
    | nil => exact hne hd
    | cons p t =>
      rw [hd] at h2
      cases h2 with
      | cons h _ => cases h

example : (⟨some "xml", some "yaml", ["a.xml"], "b"⟩ : MergeArgs).outputFormat.getD "xml" ≠ "xml" := by decide

end Tools
end Verif
