import Verif.StoreMerge
import Verif.XmlWrite
/-!
# `xml/xml_writer.py` on objects

The methods of `XmlWriter` once more, as programs on the objects of `Store.lean`.  Building of the element tree is as in `XmlWrite.lean`:
each method returns the element it appends.  `StoreXmlWriteThms.lean` relates this to `XmlWrite.lean`.
-/

namespace Verif
namespace Store
open Xml (Elem Env)
open PyNum

/-- A computation on values only. -/
def lift {α : Type} (e : Except Err α) : M α := read (fun _ => e)

/-- `str(h.getKind())` unless it is `None`.  How a `HistoryNodeKind` is printed depends on the Python version; `sk` is that function. -/
def kindText (sk : Int → String) : KindVal → Option String
  | .none => none
  | .num k => some (sk k)
  | .text t => some t

namespace XmlWriter

/-- One round of the loop of `write_coverpoint_bins`, `xml_writer.py:232-256`. -/
def writeBin (b : Nat) : M Elem := do
  let x ← bin b
  let d ← cdata x.data
  let n ← lift (Xml.setA "name" x.name)
  let t ← lift (Xml.binType d.kind)
  pure ⟨"coverpointBin", [n, ("type", t), ("key", "0")], none,
    [⟨"range", [("from", "-1"), ("to", "-1")], none, [⟨"contents", [("coverageCount", strInt d.count)], none, []⟩]⟩]⟩

/-- `write_coverpoint`, `xml_writer.py:219-227`. -/
def writeCoverpoint (o : Nat) : M Elem := do
  let nm ← getScopeName o
  let n ← lift (Xml.setA "name" nm)
  let l ← coverItems o Xml.binMask
  let bins ← l.mapM writeBin
  pure ⟨"coverpoint", [n, ("key", "0")], none, Xml.optionsElem :: bins⟩

/-- One round of the loop of `write_cross_bins`, `xml_writer.py:277-288`. -/
def writeCrossBin (b : Nat) : M Elem := do
  let x ← bin b
  let d ← cdata x.data
  let n ← lift (Xml.setA "name" x.name)
  pure ⟨"crossBin", [n, ("key", "0"), ("type", "default")], none,
    [⟨"index", [], some "-1", []⟩, ⟨"contents", [("coverageCount", strInt d.count)], none, []⟩]⟩

/-- One crossed coverpoint, `xml_writer.py:268-270`. -/
def writeCrossExpr (o i : Nat) : M Elem := do
  let c ← getIthCrossedCoverpoint o i
  let nm ← getScopeName c
  let t ← lift (Xml.setA "" nm)
  pure ⟨"crossExpr", [], some t.2, []⟩

/-- `write_cross`, `xml_writer.py:260-273`. -/
def writeCross (o : Nat) : M Elem := do
  let nm ← getScopeName o
  let n ← lift (Xml.setA "name" nm)
  let k ← getNumCrossedCoverpoints o
  let exprs ← (List.range k).mapM (writeCrossExpr o)
  let l ← coverItems o Xml.binMask
  let bins ← l.mapM writeCrossBin
  pure ⟨"cross", [n, ("key", "0")], none, Xml.optionsElem :: (exprs ++ bins)⟩

/-- `write_coverinstance`, `xml_writer.py:190-217`. -/
def writeCoverinstance (cgName : String) (o : Nat) : M Elem := do
  let nm ← getScopeName o
  let n ← lift (Xml.setA "name" nm)
  let c ← lift (Xml.setA "cgName" cgName)
  let m ← lift (Xml.setA "moduleName" cgName)
  let l ← scopes o ST.COVERPOINT
  let cps ← l.mapM writeCoverpoint
  let l ← scopes o ST.CROSS
  let crs ← l.mapM writeCross
  pure ⟨"cgInstance", [n, ("key", "0")], none, Xml.optionsElem ::
    ⟨"cgId", [c, m], none, [Xml.sourceIdElem "cginstSourceId", Xml.sourceIdElem "cgSourceId"]⟩ :: (cps ++ crs)⟩

/-- The call of `write_coverinstance` in `write_covergroups`, `xml_writer.py:182-188`, with the name of the group read each time. -/
def writeMember (cg o : Nat) : M Elem := do
  let nm ← getScopeName cg
  writeCoverinstance nm o

/-- Body of the loop of `write_covergroups`, `xml_writer.py:173-188`.  The iterator over the cover-instances is exhausted first; the
loop changes nothing. -/
def writeCovergroup (cg : Nat) : M Elem := do
  let l ← scopes cg ST.COVERINSTANCE
  match l with
  | [] => do
    let e ← writeMember cg cg
    pure ⟨"covergroupCoverage", [], none, [e]⟩
  | c :: t => do
    let es ← (c :: t).mapM (writeMember cg)
    pure ⟨"covergroupCoverage", [], none, es⟩

/-- `write_instance_coverages`, `xml_writer.py:162-169`. -/
def writeInstance (o : Nat) : M Elem := do
  let nm ← getScopeName o
  let n ← lift (Xml.setA "name" nm)
  let l ← scopes o ST.COVERGROUP
  let cgs ← l.mapM writeCovergroup
  pure ⟨"instanceCoverages", [n, ("key", "0")], none, Xml.idElem :: cgs⟩

/-- Body of the loop of `write_history_nodes`, `xml_writer.py:102-129`: the getters of `mem_history_node.py:84-169` return the attributes,
which are written as in `Xml.writeHist`. -/
def writeHist (env : Env) (sk : Int → String) (ni : Nat × Nat) : M Elem := do
  let x ← node ni.1
  lift (Xml.writeHist env ni.2 { x.data with kind := kindText sk x.kind })

/-- `write_history_nodes`, `xml_writer.py:97-157`, with `enumerate`. -/
def writeHistory (env : Env) (sk : Int → String) (db : Nat) : M (List Elem) := do
  let l ← getHistoryNodes db kindALL
  match l with
  | [] => do
    let e ← lift (Xml.dummyHist env)
    pure [e]
  | h :: t => (h :: t).zipIdx.mapM (writeHist env sk)

/-- `find_all_files`, `xml_writer.py:345-355`, for one scope, with bounded recursion (`userError` stands for `RecursionError`). -/
def findFiles : Nat → Dict Nat → Nat → M (Dict Nat)
  | 0, _, _ => fail .userError
  | fuel + 1, m, o => do
    let src ← getSourceInfo o
    let m := match src.file with
      | none => m
      | some f => Xml.addFile m f
    let l ← scopes o ST.ALL
    l.foldlM (findFiles fuel) m

/-- `XmlWriter.write`, `xml_writer.py:53-88`: the element tree that is serialised. -/
def write (env : Env) (sk : Int → String) (fuel : Nat) (db : Nat) : M Elem := do
  let l ← scopes db ST.ALL
  let m ← l.foldlM (findFiles fuel) [("__null__file__", 1)]
  let by_ ← lift (Xml.setA "writtenBy" env.user)
  let time ← lift (Xml.setA "writtenTime" env.today)
  let files ← lift (m.mapM Xml.writeFile)
  let hist ← writeHistory env sk db
  let l ← scopes db ST.INSTANCE
  let insts ← l.mapM writeInstance
  pure ⟨"UCIS", [by_, time, ("ucisVersion", "1.0")], none, files ++ hist ++ insts⟩

end XmlWriter
end Store
end Verif
