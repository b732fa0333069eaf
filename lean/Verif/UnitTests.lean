import Verif.StoreYamlRead
import Verif.StoreReport
import Verif.StoreMerge
import Verif.StoreXmlWrite
import Verif.StoreXmlRead
import Verif.UcisXsd
import Verif.XsdThms2
import Verif.Proc
/-!
# The unit tests of the repository on the model

No properties: the tests under `ve/unit` that do not need the native library, transcribed call by call, run in the model and compared with
the values that the tests assert.  This checks the model against what the authors expect of the program.
-/

namespace Verif
namespace UnitTests
open Store Yaml Report

/-- What the tests look at in a report: name, coverage; number of bins and coverage of each coverpoint and cross; the cover-instances. -/
inductive Fig where
  | mk (name : String) (coverage : Rat) (points crosses : List (Nat × Rat)) (subs : List Fig)

mutual
def fig : RCg → Fig
  | ⟨n, _, c, _, ps, xs, subs⟩ => .mk n c (ps.map (fun p => (p.bins.length, p.coverage))) (xs.map (fun x => (x.bins.length, x.coverage))) (figs subs)
def figs : List RCg → List Fig
  | [] => []
  | c :: t => fig c :: figs t
end

mutual
def Fig.same : Fig → Fig → Bool
  | .mk n c p x s, .mk n' c' p' x' s' => decide (n = n') && decide (c = c') && decide (p = p') && decide (x = x') && sames s s'
def sames : List Fig → List Fig → Bool
  | [], [] => true
  | a :: t, b :: u => a.same b && sames t u
  | _, _ => false
end

/-- Runs a test in a fresh interpreter; the report is built without rounding. -/
def reportIs (test : M Nat) (want : List Fig) : Bool :=
  match (do let o ← test; ReportBuilder.build id 10 o) Heap.empty with
  | (.ok r, _) => sames (figs r.covergroups) want
  | (.error _, _) => false

/-- `dst_db = MemFactory.create(); DbMerger().merge(dst_db, [YamlReader().loads(t) for t in texts])`. -/
def merged (docs : List YDoc) : M Nat := do
  let srcs ← docs.mapM YamlReader.loadDoc
  let dst ← newDb
  DbMerger.merge dst srcs
  pure dst

def doc (cgs : List YCg) : YDoc := ⟨some (some cgs)⟩
def inst (n : String) (cps : List YCp) : YInst := ⟨n, some cps, none⟩
/-- A coverpoint with bins `b0`, `b1` as in most of the tests. -/
def two (n : String) (c0 c1 : Int) : YCp := ⟨n, none, [⟨"b0", c0⟩, ⟨"b1", c1⟩], none, none⟩
def four (n : String) (a b c d : Int) : YCross :=
  ⟨n, none, ["cp1", "cp2"], some [⟨"<b0,b0>", a⟩, ⟨"<b0,b1>", b⟩, ⟨"<b1,b0>", c⟩, ⟨"<b1,b1>", d⟩]⟩

/-! ## `test_merge.py` -/

/-- `test_merge.py:21-57`, `test_null_type_cg_1_cp`. -/
def nullType : YDoc := doc [⟨"cvg", none, some [inst "i1" [two "cp1" 1 0]]⟩]
def nullTypeWant : List Fig := [.mk "cvg" 50 [(2, 50)] [] [.mk "i1" 50 [(2, 50)] [] []]]
example : reportIs (YamlReader.loadDoc nullType) nullTypeWant = true := by decide +kernel
example : reportIs (merged [nullType]) nullTypeWant = true := by decide +kernel

/-- `test_merge.py:59-126`, `test_null_inst_cg_1_cp`. -/
def nullInst : YDoc := doc [⟨"cvg", none, some [inst "inst1" [two "cp1" 0 1], inst "inst2" [two "cp1" 1 0]]⟩]
def nullInstWant : List Fig := [.mk "cvg" 100 [(2, 100)] [] [.mk "inst1" 50 [(2, 50)] [] [], .mk "inst2" 50 [(2, 50)] [] []]]
example : reportIs (YamlReader.loadDoc nullInst) nullInstWant = true := by decide +kernel
example : reportIs (merged [nullInst]) nullInstWant = true := by decide +kernel

def one (cg i : String) (a b : Int) : YDoc := doc [⟨cg, none, some [inst i [two "cp1" a b]]⟩]

/-- `test_merge.py:130-187`, `test_2db_1t_2i`. -/
example : reportIs (merged [one "cvg" "inst1" 0 1, one "cvg" "inst2" 1 0]) nullInstWant = true := by decide +kernel

/-- `test_merge.py:189-242`, `test_2db_1t_1i`. -/
example : reportIs (merged [one "cvg" "inst1" 0 1, one "cvg" "inst1" 1 0])
    [.mk "cvg" 100 [(2, 100)] [] [.mk "inst1" 100 [(2, 100)] [] []]] = true := by decide +kernel

/-- `test_merge.py:244-317`, `test_3db_1t_2i`. -/
example : reportIs (merged [one "cvg" "inst1" 0 1, one "cvg" "inst1" 1 0, one "cvg" "inst2" 1 0])
    [.mk "cvg" 100 [(2, 100)] [] [.mk "inst1" 100 [(2, 100)] [] [], .mk "inst2" 50 [(2, 50)] [] []]] = true := by decide +kernel

/-- `test_merge.py:320-396`, `test_3db_2t_1i`. -/
example : reportIs (merged [one "cvg" "inst1" 0 1, one "cvg" "inst1" 1 0, one "cvg2" "inst1" 1 0])
    [.mk "cvg" 100 [(2, 100)] [] [.mk "inst1" 100 [(2, 100)] [] []], .mk "cvg2" 50 [(2, 50)] [] [.mk "inst1" 50 [(2, 50)] [] []]] = true := by
  decide +kernel

/-- `test_merge.py:398-528`, `test_1db_2ci_2cp_1cr`. -/
def crossed : YDoc := doc [⟨"cvg", none, some
  [⟨"inst1", some [two "cp1" 0 1, two "cp2" 0 1], some [four "cp1xc2" 0 0 0 1]⟩,
   ⟨"inst2", some [two "cp1" 1 0, two "cp2" 1 0], some [four "cp1xc2" 1 0 0 0]⟩]⟩]
def crossedWant : List Fig := [.mk "cvg" (250 / 3) [(2, 100), (2, 100)] [(4, 50)]
  [.mk "inst1" (125 / 3) [(2, 50), (2, 50)] [(4, 25)] [], .mk "inst2" (125 / 3) [(2, 50), (2, 50)] [(4, 25)] []]]
example : reportIs (YamlReader.loadDoc crossed) crossedWant = true := by decide +kernel
example : reportIs (merged [crossed]) crossedWant = true := by decide +kernel

/-- `test_merge.py:652-788`, `test_2db_2ci_2cp_1cr`. -/
def crossed1 : YDoc := doc [⟨"cvg", none, some
  [⟨"inst1", some [two "cp1" 1 0, two "cp2" 1 0], some [four "cp1xc2" 1 0 0 0]⟩,
   ⟨"inst2", some [two "cp1" 1 0, two "cp2" 0 1], some [four "cp1xc2" 0 1 0 0]⟩]⟩]
def crossed2 : YDoc := doc [⟨"cvg", none, some
  [⟨"inst1", some [two "cp1" 0 1, two "cp2" 1 0], some [four "cp1xc2" 0 0 1 0]⟩,
   ⟨"inst2", some [two "cp1" 0 1, two "cp2" 0 1], some [four "cp1xc2" 0 0 0 1]⟩]⟩]
example : reportIs (YamlReader.loadDoc crossed1) [.mk "cvg" (200 / 3) [(2, 50), (2, 100)] [(4, 50)]
  [.mk "inst1" (125 / 3) [(2, 50), (2, 50)] [(4, 25)] [], .mk "inst2" (125 / 3) [(2, 50), (2, 50)] [(4, 25)] []]] = true := by decide +kernel
example : reportIs (merged [crossed1, crossed2]) [.mk "cvg" 100 [(2, 100), (2, 100)] [(4, 100)]
  [.mk "inst1" (200 / 3) [(2, 100), (2, 50)] [(4, 50)] [], .mk "inst2" (200 / 3) [(2, 100), (2, 50)] [(4, 50)] []]] = true := by decide +kernel

/-! ## `test_yaml_reader.py` -/

/-- `test_yaml_reader.py:17-55`, `test_smoke`. -/
example : reportIs (YamlReader.loadDoc (doc [⟨"ABC", some 1, some
    [inst "I1" [⟨"CP1", some 1, [⟨"a", 1⟩, ⟨"b", 0⟩], none, none⟩], inst "I2" [⟨"CP1", some 1, [⟨"a", 0⟩, ⟨"b", 1⟩], none, none⟩]]⟩]))
    [.mk "ABC" 100 [(2, 100)] [] [.mk "I1" 50 [(2, 50)] [] [], .mk "I2" 50 [(2, 50)] [] []]] = true := by decide +kernel

/-- `test_yaml_reader.py:58-106`, `test_cross_smoke`: 41.67 rounded to two digits. -/
example : reportIs (YamlReader.loadDoc (doc [⟨"ABC", some 1, some
    [⟨"I1", some [⟨"CP1", some 1, [⟨"a", 1⟩, ⟨"b", 0⟩], none, none⟩, ⟨"CP2", some 1, [⟨"a", 0⟩, ⟨"b", 1⟩], none, none⟩],
      some [⟨"CP1xCP2", none, ["CP1", "CP2"], some [⟨"<a,a>", 0⟩, ⟨"<a,b>", 1⟩, ⟨"<b,a>", 0⟩, ⟨"<b,b>", 0⟩]⟩]⟩]⟩]))
    [.mk "ABC" (125 / 3) [(2, 50), (2, 50)] [(4, 25)] [.mk "I1" (125 / 3) [(2, 50), (2, 50)] [(4, 25)] []]] = true := by decide +kernel

/-- `test_yaml_reader.py:133-163`, `test_type_cvg_2_cvp` (`test_type_cvg_cvp` is `nullType`). -/
example : reportIs (YamlReader.loadDoc (doc [⟨"cvg", none, some [inst "i1" [two "cp1" 1 0, two "cp2" 1 1]]⟩]))
    [.mk "cvg" 75 [(2, 50), (2, 100)] [] [.mk "i1" 75 [(2, 50), (2, 100)] [] []]] = true := by decide +kernel

/-! ## `test_report.py` -/

/-- `DbCreator().dummy_test_data()`, `db_creator.py:31-43`; the default values of `TestData` (`test_data.py:27-41`). -/
def testData : Store.TestData := ⟨1, "UCIS:simulator", .text "20200202020", 0, some "ns", some ".", 0, some "0", some "", some "", some "0", some "user", 0⟩

/-- `UCIS_ENABLED_STMT | ... | UCIS_SCOPE_UNDER_DU`: the same flags as in the merger. -/
def flags : Int := DbMerger.duFlags

/-- `DbCreator()`, `dummy_test_data()` and `dummy_instance()`, `db_creator.py:22-68`: database and instance. -/
def dummy : M (Nat × Nat) := do
  let db ← newDb
  let t ← createHistoryNode db 0 none (some "logicalName") (some "file.ucis") (.num 1)
  setTestData t testData
  let _ ← createFileHandle db "dummy"
  let du ← createScope db "foo.bar" (some ⟨some "dummy", 0, 0⟩) 1 srcOTHER ST.DU_MODULE flags
  let i ← createInstance db "dummy" none 1 srcOTHER ST.INSTANCE (some du) 1
  pure (db, i)

/-- `create_covergroup`, `db_creator.py:71-131`, with weight and bins of the coverpoints. -/
def makeGroup (i : Nat) (n : String) (w : Int) (cps : List (String × Int × List (String × Int))) : M Unit := do
  let g ← createCovergroup i n none w srcOTHER
  each (fun (p : String × Int × List (String × Int)) => do
    let c ← createCoverpoint g p.1 none p.2.1 srcOTHER
    each (fun (b : String × Int) => do let _ ← createBin c b.1 none 1 b.2 CT.CVGBIN) p.2.2) cps

def bs (l : List Int) : List (String × Int) := l.zipIdx.map (fun x => ("b" ++ toString (x.2 + 1), x.1))

def groups (l : List (String × Int × List (String × Int × List (String × Int)))) : M Nat := do
  let (db, i) ← dummy
  each (fun (g : String × Int × List (String × Int × List (String × Int))) => makeGroup i g.1 g.2.1 g.2.2) l
  pure db

/-- `test_report.py:12-39`. -/
example : reportIs (groups [("cg_t", 1, [("a_cp", 1, bs [1, 1, 0, 0])])]) [.mk "cg_t" 50 [(4, 50)] [] []] = true := by decide +kernel
/-- `test_report.py:42-79`. -/
example : reportIs (groups [("cp_t", 1, [("a_cp", 1, bs [1, 1, 0, 0]), ("b_cp", 1, bs [0, 0, 0, 0])])])
    [.mk "cp_t" 25 [(4, 50), (4, 0)] [] []] = true := by decide +kernel
/-- `test_report.py:82-125`: the coverage is `round(100*4/12, 2)`. -/
example : reportIs (groups [("cg_t", 1, [("a_cp", 4, bs [1, 1, 0, 0]), ("b_cp", 8, bs [0, 0, 0, 0, 0, 0, 1, 1])])])
    [.mk "cg_t" (100 * 4 / 12) [(4, 50), (8, 25)] [] []] = true := by decide +kernel

/-- `test_report.py:127-198`: overall 75 %. -/
def twoTypes : M Nat := groups [("cg_t", 1, [("a_cp", 1, bs [1, 1, 0, 0]), ("b_cp", 1, bs [0, 0, 0, 0, 1, 1, 1, 1])]),
  ("cg_t", 1, [("a_cp", 1, bs [1, 1, 1, 1]), ("b_cp", 1, bs [1, 1, 1, 1, 1, 1, 1, 1])])]
example : (match (do let o ← twoTypes; ReportBuilder.build id 10 o) Heap.empty with
    | (.ok r, _) => decide (r.covergroups.map (·.coverpoints.length) = [2, 2] ∧ r.coverage = 75)
    | _ => false) = true := by decide +kernel

/-! ## Tests that write and read XML -/

/-- `UCIS_VLOG` and the name that `str(HistoryNodeKind)` gives. -/
def vlog : Int := 1
def kinds : Int → String := fun _ => "HistoryNodeKind.TEST"

/-- The start of the tests in `test_xml_output.py`, `test_xml_reader.py`, `test_simple_create.py` and `test_coverage_report.py` (e.g.
`test_xml_output.py:31-72`) with the name of the instance: database and covergroup `cg`. -/
def start (iname : String) : M (Nat × Nat) := do
  let db ← newDb
  let t ← createHistoryNode db 0 none (some "logicalName") (some "file.ucis") (.num 1)
  setTestData t testData
  let _ ← createFileHandle db "dummy"
  let du ← createScope db "foo.bar" (some ⟨some "dummy", 0, 0⟩) 1 srcOTHER ST.DU_MODULE flags
  let i ← createInstance db iname none 1 srcOTHER ST.INSTANCE (some du) 1
  let cg ← createCovergroup i "cg" (some ⟨some "dummy", 3, 0⟩) 1 srcOTHER
  pure (db, cg)

def at4 : Option SrcInfo := some ⟨some "dummy", 4, 0⟩

/-- `test_xml_output.py:26-95`, the same calls in `test_simple_create.py:33-100` and `test_coverage_report.py:21-83`. -/
def simplest : M Nat := do
  let (db, cg) ← start "dummy"
  let cp ← createCoverpoint cg "t" at4 1 vlog
  setComment cp "Hello There"
  let _ ← createBin cp "auto[a]" at4 1 4 CT.CVGBIN
  pure db

/-- `test_xml_output.py:97-231`, with the other name of the instance `test_xml_reader.py:22-146`. -/
def withCross (iname : String) : M Nat := do
  let (db, cg) ← start iname
  let cp1 ← createCoverpoint cg "cp1" at4 1 vlog
  let _ ← createBin cp1 "v[1]" at4 1 4 CT.CVGBIN
  let _ ← createBin cp1 "v[2]" at4 1 4 CT.CVGBIN
  let cp2 ← createCoverpoint cg "cp2" at4 1 vlog
  let _ ← createBin cp2 "v2[1]" at4 1 4 CT.CVGBIN
  let _ ← createBin cp2 "v2[2]" at4 1 4 CT.CVGBIN
  let cr ← createCross cg "cr" at4 1 vlog [cp1, cp2]
  let _ ← createBin cr "<v1[1],v2[1]>" at4 1 4 CT.CVGBIN
  let _ ← createBin cr "<v1[2],v2[1]>" at4 1 4 CT.CVGBIN
  let _ ← createBin cr "<v1[1],v2[2]>" at4 1 4 CT.CVGBIN
  let _ ← createBin cr "<v1[2],v2[2]>" at4 1 4 CT.CVGBIN
  pure db

/-- `test_simple_create.py:102-220`: two instances of one name, each with the covergroup `cg`. -/
def twoInsts : M Nat := do
  let db ← newDb
  let t ← createHistoryNode db 0 none (some "logicalName") (some "file_2inst.ucis") (.num 1)
  setTestData t testData
  let _ ← createFileHandle db "dummy"
  let at0 := some ⟨some "dummy", 0, 0⟩
  let du1 ← createScope db "foo.bar1" at0 1 srcOTHER ST.DU_MODULE flags
  let _ ← createScope db "foo.bar2" at0 1 srcOTHER ST.DU_MODULE flags
  let i1 ← createInstance db "dummy" none 1 srcOTHER ST.INSTANCE (some du1) 1
  let cg1 ← createCovergroup i1 "cg" (some ⟨some "dummy", 3, 0⟩) 1 srcOTHER
  let cp1 ← createCoverpoint cg1 "t" at4 1 vlog
  let _ ← createBin cp1 "auto[a]" at4 1 4 CT.CVGBIN
  let du2 ← createScope db "foo.bar2" at0 1 srcOTHER ST.DU_MODULE flags
  let i2 ← createInstance db "dummy" none 1 srcOTHER ST.INSTANCE (some du2) 1
  let cg2 ← createCovergroup i2 "cg" (some ⟨some "dummy", 3, 0⟩) 1 srcOTHER
  let cp2 ← createCoverpoint cg2 "t" at4 1 vlog
  let _ ← createBin cp2 "auto[a]" at4 1 4 CT.CVGBIN
  pure db

/-- `test_simple_create.py:222-311`. -/
def typeAndInst : M Nat := do
  let (db, cg) ← start "dummy"
  let cp ← createCoverpoint cg "t" at4 1 vlog
  let _ ← createBin cp "auto[a]" at4 1 4 CT.CVGBIN
  let i1 ← createCoverInstance cg "cg_i1" (some ⟨some "dummy", 3, 0⟩) 1 srcOTHER
  let cp' ← createCoverpoint i1 "t" at4 1 vlog
  let _ ← createBin cp' "auto[a]" at4 1 0 CT.CVGBIN
  pure db

/-- Decimal text of a number of seconds; only 0 occurs in the tests. -/
def secs : Xml.FloatText := ⟨fun q => if q = 0 then "0.0" else Xml.decText.show_ q, fun t => if t = "0.0" then some 0 else Xml.decText.read t⟩
def env : Xml.Env := { Xml.exEnv2 with flt := secs }

/-- `XmlWriter().write(out, db); validate_ucis_xml(out)`. -/
def writesValid (db : M Nat) : Bool :=
  match (do let o ← db; XmlWriter.write env kinds 10 o) Heap.empty with
  | (.ok e, _) => Xsd.valid Xsd.ucisXsd e
  | (.error _, _) => false

/-- Writes, reads again with `XmlReader().read`, and writes once more. -/
def rewritesValid (db : M Nat) : Bool :=
  writesValid (do let o ← db; let e ← XmlWriter.write env kinds 10 o; XmlReader.read secs 0 e)

example : writesValid simplest = true := by decide +kernel
example : rewritesValid simplest = true := by decide +kernel
example : writesValid (withCross "dummy") = true := by decide +kernel
example : writesValid (withCross "my_inst_scope") = true := by decide +kernel
example : rewritesValid (withCross "my_inst_scope") = true := by decide +kernel
example : writesValid twoInsts = true := by decide +kernel
example : writesValid typeAndInst = true := by decide +kernel
/-- `test_coverage_report.py:83-85` prints the number of covergroups. -/
example : reportIs simplest [.mk "cg" 100 [(1, 100)] [] []] = true := by decide +kernel

/-! ## `test_merge.py:531-650`, `test_2db_2ci_2cp_1cr_xml` -/

def xml1 : Xml.Elem :=
  ⟨"UCIS", [("writtenBy", "apaiva"), ("writtenTime", "2024-09-20T00:00:00"), ("ucisVersion", "1.0")], none, [
    ⟨"sourceFiles", [("fileName", "__null__file__"), ("id", "1")], none, []⟩,
    ⟨"sourceFiles", [("fileName", "<unknown>"), ("id", "2")], none, []⟩,
    ⟨"sourceFiles", [("fileName", "/xxx/agents/l1_client_fcov.py"), ("id", "3")], none, []⟩,
    ⟨"sourceFiles", [("fileName", "/xxx/agents/fpu/fpu_fcov.py"), ("id", "4")], none, []⟩,
    ⟨"sourceFiles", [("fileName", "/xxx/instrn/instrn_fcov/instrn_fcov.py"), ("id", "5")], none, []⟩,
    ⟨"sourceFiles", [("fileName", "/xxx/agents/unpack/unpack_fcov.py"), ("id", "6")], none, []⟩,
    ⟨"sourceFiles", [("fileName", "/xxx/agents/pack/pack_fcov.py"), ("id", "7")], none, []⟩,
    ⟨"historyNodes", [("historyNodeId", "0"), ("logicalName", "logicalName"), ("physicalName", "foo.ucis"), ("kind", "HistoryNodeKind.TEST"), ("testStatus", "true"), ("simtime", "0.0"), ("timeunit", "ns"), ("runCwd", "."), ("cpuTime", "0.0"), ("seed", "0"), ("cmd", ""), ("args", ""), ("compulsory", "0"), ("date", "2024-09-20T22:19:22"), ("userName", "user"), ("cost", "0.0"), ("toolCategory", "UCIS:simulator"), ("ucisVersion", "1.0"), ("vendorId", "unknown"), ("vendorTool", "unknown"), ("vendorToolVersion", "unknown")], none, []⟩,
    ⟨"instanceCoverages", [("name", "cg_inst"), ("key", "0")], none, [
      ⟨"id", [("file", "1"), ("line", "1"), ("inlineCount", "1")], none, []⟩,
      ⟨"covergroupCoverage", [], none, [
        ⟨"cgInstance", [("name", "L1ClientOp"), ("key", "0")], none, [
          ⟨"options", [], none, []⟩,
          ⟨"coverpoint", [("name", "cp_101_in_fmt"), ("key", "0")], none, [
            ⟨"options", [], none, []⟩,
            ⟨"coverpointBin", [("name", "T6TensorStorageType.Float32"), ("type", "bins"), ("key", "0")], none, [
              ⟨"range", [("from", "-1"), ("to", "-1")], none, [
                ⟨"contents", [("coverageCount", "0")], none, []⟩]⟩]⟩]⟩,
          ⟨"coverpoint", [("name", "cp_blk_id"), ("key", "0")], none, [
            ⟨"options", [], none, []⟩,
            ⟨"coverpointBin", [("name", "cp_blk_id[0]"), ("type", "bins"), ("key", "0")], none, [
              ⟨"range", [("from", "-1"), ("to", "-1")], none, [
                ⟨"contents", [("coverageCount", "5")], none, []⟩]⟩]⟩]⟩,
          ⟨"cross", [("name", "cc_101_in_fmt_X_upk_id"), ("key", "0")], none, [
            ⟨"options", [], none, []⟩,
            ⟨"crossExpr", [], some "cp_101_in_fmt", []⟩,
            ⟨"crossExpr", [], some "cp_blk_id", []⟩,
            ⟨"crossBin", [("name", "<T6TensorStorageType.Float32,cp_blk_id[0]>"), ("key", "0"), ("type", "default")], none, [
              ⟨"index", [], some "-1", []⟩,
              ⟨"contents", [("coverageCount", "0")], none, []⟩]⟩,
            ⟨"crossBin", [("name", "<T6TensorStorageType.Float32,cp_blk_id[1]>"), ("key", "0"), ("type", "default")], none, [
              ⟨"index", [], some "-1", []⟩,
              ⟨"contents", [("coverageCount", "0")], none, []⟩]⟩]⟩]⟩]⟩]⟩]⟩

def xml2 : Xml.Elem :=
  ⟨"UCIS", [("writtenBy", "apaiva"), ("writtenTime", "2024-09-20T00:00:00"), ("ucisVersion", "1.0")], none, [
    ⟨"sourceFiles", [("fileName", "__null__file__"), ("id", "1")], none, []⟩,
    ⟨"sourceFiles", [("fileName", "<unknown>"), ("id", "2")], none, []⟩,
    ⟨"sourceFiles", [("fileName", "/xxx/agents/l1_client_fcov.py"), ("id", "3")], none, []⟩,
    ⟨"sourceFiles", [("fileName", "/xxx/agents/fpu/fpu_fcov.py"), ("id", "4")], none, []⟩,
    ⟨"sourceFiles", [("fileName", "/xxx/instrn/instrn_fcov/instrn_fcov.py"), ("id", "5")], none, []⟩,
    ⟨"sourceFiles", [("fileName", "/xxx/agents/unpack/unpack_fcov.py"), ("id", "6")], none, []⟩,
    ⟨"sourceFiles", [("fileName", "/xxx/agents/pack/pack_fcov.py"), ("id", "7")], none, []⟩,
    ⟨"historyNodes", [("historyNodeId", "0"), ("logicalName", "logicalName"), ("physicalName", "foo.ucis"), ("kind", "HistoryNodeKind.TEST"), ("testStatus", "true"), ("simtime", "0.0"), ("timeunit", "ns"), ("runCwd", "."), ("cpuTime", "0.0"), ("seed", "0"), ("cmd", ""), ("args", ""), ("compulsory", "0"), ("date", "2024-09-20T22:19:22"), ("userName", "user"), ("cost", "0.0"), ("toolCategory", "UCIS:simulator"), ("ucisVersion", "1.0"), ("vendorId", "unknown"), ("vendorTool", "unknown"), ("vendorToolVersion", "unknown")], none, []⟩,
    ⟨"instanceCoverages", [("name", "cg_inst"), ("key", "0")], none, [
      ⟨"id", [("file", "1"), ("line", "1"), ("inlineCount", "1")], none, []⟩,
      ⟨"covergroupCoverage", [], none, [
        ⟨"cgInstance", [("name", "L1ClientOp"), ("key", "0")], none, [
          ⟨"options", [], none, []⟩,
          ⟨"coverpoint", [("name", "cp_101_in_fmt"), ("key", "0")], none, [
            ⟨"options", [], none, []⟩,
            ⟨"coverpointBin", [("name", "T6TensorStorageType.Float32"), ("type", "bins"), ("key", "0")], none, [
              ⟨"range", [("from", "-1"), ("to", "-1")], none, [
                ⟨"contents", [("coverageCount", "0")], none, []⟩]⟩]⟩]⟩,
          ⟨"coverpoint", [("name", "cp_blk_id"), ("key", "0")], none, [
            ⟨"options", [], none, []⟩,
            ⟨"coverpointBin", [("name", "cp_blk_id[0]"), ("type", "bins"), ("key", "0")], none, [
              ⟨"range", [("from", "-1"), ("to", "-1")], none, [
                ⟨"contents", [("coverageCount", "5")], none, []⟩]⟩]⟩,
            ⟨"coverpointBin", [("name", "cp_blk_id[1]"), ("type", "bins"), ("key", "0")], none, [
              ⟨"range", [("from", "-1"), ("to", "-1")], none, [
                ⟨"contents", [("coverageCount", "5")], none, []⟩]⟩]⟩]⟩,
          ⟨"cross", [("name", "cc_101_in_fmt_X_upk_id"), ("key", "0")], none, [
            ⟨"options", [], none, []⟩,
            ⟨"crossExpr", [], some "cp_101_in_fmt", []⟩,
            ⟨"crossExpr", [], some "cp_blk_id", []⟩,
            ⟨"crossBin", [("name", "<T6TensorStorageType.Float32,cp_blk_id[0]>"), ("key", "0"), ("type", "default")], none, [
              ⟨"index", [], some "-1", []⟩,
              ⟨"contents", [("coverageCount", "0")], none, []⟩]⟩,
            ⟨"crossBin", [("name", "<T6TensorStorageType.Float32,cp_blk_id[1]>"), ("key", "0"), ("type", "default")], none, [
              ⟨"index", [], some "-1", []⟩,
              ⟨"contents", [("coverageCount", "0")], none, []⟩]⟩]⟩]⟩]⟩]⟩]⟩

/-! ## `test_xml_examples.py`: `example_create_ucis.create_ucis(db)` with the procedural functions -/

open Proc (Fn) in
/-- A call that makes a scope. -/
def scopeOf (f : Fn) : M Nat := do
  match ← Proc.call f with
  | .scope o => pure o
  | _ => fail .typeError

/-- `CoverData(kind, flags)`. -/
def dataOf (kind : Nat) (flags : Int) : M Nat := do
  match ← Proc.call (.coverData kind flags) with
  | .data d => pure d
  | _ => fail .typeError

def src (line token : Int) : Option SrcInfo := some ⟨some "test.sv", line, token⟩

/-- `create_statement`, `example_create_ucis.py:106-126`; the bins of instances are numbered. -/
def createStatement (db i : Nat) (name : String) (line item count : Int) : M Unit := do
  let d ← dataOf 32 1
  let _ ← Proc.call (.assign d .data count)
  match ← Proc.call (.createNextCover db (some i) name d (src line 17)) with
  | .cover (.index k) => do
    let _ ← Proc.call (.setInt db (some (.scope i)) k .stmtIndex item)
  | _ => fail .typeError

/-- `create_coverpoint_bin`, `example_create_ucis.py:198-213`. -/
def createPointBin (db c : Nat) (name : String) (count : Int) : M Unit := do
  let d ← dataOf CT.CVGBIN 25
  let _ ← Proc.call (.assign d .data count)
  let _ ← Proc.call (.assign d .atLeast 1)
  let _ ← Proc.call (.assign d .weight 1)
  let _ ← Proc.call (.createNextCover db (some c) name d (src 4 0))

/-- `create_ucis`, `example_create_ucis.py:222-235`, with the functions before it; the database is that of `MemFactory.create()`. -/
def createUcis : M Nat := do
  let db ← scopeOf .create
  match ← Proc.call (.createHistoryNode db 0 none (some "TestLogicalName") (some "file.ucis") (.num 1)) with
  | .node n => do
    let _ ← Proc.call (.setTestData db (some n) ⟨1, "UCIS:Simulator", .text "20110824143300", 0, some "ns", some "./", 0, some "0",
      some "toolname", some "command arguments", some "0", some "ucis_user", 0⟩)
  | _ => fail .typeError
  let _ ← Proc.call (.createFileHandle db "test.sv")
  let du ← scopeOf (.createScope db none "work.top" (src 0 0) 1 vlog ST.DU_MODULE flags)
  let _ ← Proc.call (.setString db (some (.scope du)) "DU_SIGNATURE" "FAKE DU SIGNATURE")
  let i ← scopeOf (.createInstance db none "top" none 1 vlog ST.INSTANCE (some du) 1)
  createStatement db i "#stmt#1#6#1#" 6 1 17
  createStatement db i "#stmt#1#8#1#" 8 1 0
  createStatement db i "#stmt#1#9#2#" 9 2 365
  let t ← scopeOf (.createToggle db (some i) "t" 0)
  let d ← dataOf 512 1
  let _ ← Proc.call (.assign d .data 0)
  let _ ← Proc.call (.createNextCover db (some t) "a" d none)
  let _ ← Proc.call (.assign d .data 1)
  let _ ← Proc.call (.createNextCover db (some t) "b" d none)
  let g ← scopeOf (.createScope db (some i) "cg" (src 3 0) 1 vlog ST.COVERGROUP 0)
  let _ ← Proc.call (.setInt db (some (.scope g)) (-1) .scopeGoal 100)
  let _ ← Proc.call (.setInt db (some (.scope g)) (-1) .cvgStrobe 0)
  let _ ← Proc.call (.setInt db (some (.scope g)) (-1) .cvgMergeinstances 1)
  let _ ← Proc.call (.setString db (some (.scope g)) "COMMENT" "")
  let c ← scopeOf (.createScope db (some g) "t" (src 4 0) 1 vlog ST.COVERPOINT 0)
  let _ ← Proc.call (.setInt db (some (.scope c)) (-1) .scopeGoal 100)
  let _ ← Proc.call (.setInt db (some (.scope c)) (-1) .cvgAtleast 1)
  let _ ← Proc.call (.setString db (some (.scope c)) "COMMENT" "")
  createPointBin db c "auto[a]" 0
  createPointBin db c "auto[b]" 1
  pure db

/-- `test_xml_examples.py:10-14`: the database is written; the document is even valid, can be read, and the report is that of the two bins. -/
example : writesValid createUcis = true := by decide +kernel
example : rewritesValid createUcis = true := by decide +kernel
example : reportIs createUcis [.mk "cg" 50 [(2, 50)] [] []] = true := by decide +kernel

/-- `m_children[i]`. -/
def child (i o : Nat) : M Nat := do
  let x ← obj o
  match x.children[i]? with
  | some c => pure c
  | none => fail .indexError

def mergedXml : M (List Nat) := do
  let a ← XmlReader.read secs 0 xml1
  let b ← XmlReader.read secs 0 xml2
  let _ ← ReportBuilder.build id 10 a
  let dst ← newDb
  DbMerger.merge dst [a, b]
  let x ← obj dst
  let i ← child 1 dst
  let g ← child 0 i
  let y ← obj g
  let cr ← child 2 g
  let z ← obj cr
  let gi ← child 3 g
  let cri ← child 2 gi
  let w ← obj cri
  pure [x.children.length, y.children.length, z.cps.length, w.cps.length]

example : (mergedXml Heap.empty).1 = .ok [2, 4, 2, 2] := by decide +kernel

end UnitTests
end Verif
