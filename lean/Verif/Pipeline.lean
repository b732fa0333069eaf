import Verif.Tools
import Verif.XmlFactory
import Verif.MergeDb
import Verif.Yaml
import Verif.Format
/-!
# The registered formats and the commands on them
-/

namespace Verif
namespace Tools

/-- What the formats take from other libraries: decompression, XML parsing and serialising (lxml), YAML parsing (PyYAML), JSON
printing, text encoding; and the environment of the XML writer and floating point rounding. -/
structure Ext where
  modules : Modules
  gunzip : Bytes → Except Err Bytes
  unlz4 : Bytes → Except Err Bytes
  parseXml : Bytes → Except Err Xml.Elem
  showXml : Xml.Elem → Bytes
  parseYaml : Bytes → Except Err Yaml.Json
  encode : String → Bytes
  showJson : Format.JRpt → Bytes
  env : Xml.Env
  rd : Rat → Rat

/-- `XmlFactory.read` on a path, `xml_factory.py:53-79`.  A missing file is `userError` here (Python `FileNotFoundError`);
if `_open_file` returned `None`, validation raises `TypeError`. -/
def xmlRead (x : Ext) : Option Bytes → Except Err Database
  | none => .error .userError
  | some content =>
    match openFile x.modules content with
    | none => .error .typeError
    | some o => do
      let text ← match o with
        | .gzip => x.gunzip content
        | .lz4 => x.unlz4 content
        | .plain => .ok content
      let doc ← x.parseXml text
      Xml.factoryRead x.env.flt doc

/-- `XmlUCIS.write`, `xml_ucis.py:7-12`, once the file is open: `XmlWriter.write` builds the whole tree before it
writes the text (`xml_writer.py:53-88`). -/
def xmlWrite (x : Ext) (db : Database) : Bytes × Except Err Unit :=
  match Xml.write x.env db with
  | .ok doc => (x.showXml doc, .ok ())
  | .error e => ([], .error e)

/-- `DbFormatIfXml`, `db_format_if_xml.py:9-19`. -/
def xmlIf (x : Ext) : DbIf Database where
  read := xmlRead x
  create := .ok ⟨emptyDb, [], []⟩
  write := .ok (xmlWrite x)

/-- `DbFormatIfLib`, `lib/db_format_if_lib.py:9-38`: `_get_lib` returns `None`, so `create` and `read` raise.  `write` is
never reached. -/
def libIf : DbIf Database where
  read := fun _ => .error .userError
  create := .error .userError
  write := .error .notImplemented

/-- `DbFormatIfYaml`, `db_format_if_yaml.py:10-25`; `YamlUCIS.write` raises (`yaml_ucis.py:6-7`). -/
def yamlIf (x : Ext) : DbIf Database where
  read := fun
    | none => .error .userError
    | some content => do Yaml.load (← x.parseYaml content)
  create := .ok ⟨emptyDb, [], []⟩
  write := .error .userError

/-- `FormatRptText`, `format_rpt_text.py:30-38`: the report is built before anything is written. -/
def txtRptIf (x : Ext) : RptIf Database where
  report := fun db =>
    match Format.reportDb x.rd false false db.root with
    | .ok w => (x.encode (String.join w.out), .ok ())
    | .error e => ([], .error e)
  reportDir := fun _ => .error .attributeError

/-- `FormatRptJson`, `format_rpt_json.py:39-57`. -/
def jsonRptIf (x : Ext) : RptIf Database where
  report := fun db =>
    match Format.jReport x.rd true db.root with
    | .ok j => (x.showJson j, .ok ())
    | .error e => ([], .error e)
  reportDir := fun _ => .error .attributeError

/-- `FormatRgy._init_rgy`, `format_rgy.py:65-73`, with the `register` methods `db_format_if_xml.py:21-27`,
`db_format_if_lib.py:40-46`, `db_format_if_yaml.py:26-32`, `format_rpt_json.py:30-37`, `format_rpt_text.py:21-28`. -/
def defaultRgy (x : Ext) : Rgy Database :=
  ((((Rgy.init.addDatabaseFormat ⟨"xml", 6, "Supports reading and writing UCIS XML interchange", xmlIf x⟩).addDatabaseFormat
    ⟨"libucis", 3, "Reads coverage data via an implementation of the UCIS C API", libIf⟩).addDatabaseFormat
    ⟨"yaml", 6, "Reads coverage data from a YAML file", yamlIf x⟩).addReportFormat
    ⟨"json", rptStream, "Produces a machine-readable JSON coverage report", jsonRptIf x⟩).addReportFormat
    ⟨"txt", rptStream, "Produces a human-readable textual coverage report", txtRptIf x⟩

/-- The `merge` command of the program. -/
def ucisMerge (x : Ext) (a : MergeArgs) : Cmd Unit := mergeCmd (defaultRgy x) Merge.mergeDb a
/-- The `convert` command of the program. -/
def ucisConvert (x : Ext) (a : ConvertArgs) : Cmd Unit := convertCmd (defaultRgy x) Merge.mergeDb a
/-- The `report` command of the program. -/
def ucisReport (x : Ext) (a : ReportArgs) : Cmd Unit := reportCmd (defaultRgy x) a

end Tools
end Verif
