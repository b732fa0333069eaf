import Verif.StoreXmlWrite
import Verif.XmlRead
/-!
# `xml/xml_reader.py` on objects

The methods of `XmlReader` once more, as programs on the objects of `Store.lean`: the database, its scopes, bins, file handles and
history nodes are made by the same API calls in the same order.  What is read of the document without touching an object is the
function of `XmlRead.lean`.  `StoreXmlReadThms.lean` relates the whole to `XmlRead.lean`.
-/

namespace Verif
namespace Store
open Xml (Elem FloatText iter)

/-- A `for` loop that only acts. -/
def each {α : Type} (f : α → M Unit) : List α → M Unit
  | [] => pure ()
  | a :: t => do
    f a
    each f t

namespace XmlReader

/-- `readCoverpointBin`, `xml_reader.py:291-331`.  `tbl` is the dictionary `cp_type_i[1]`, which Python changes in place; here
it is returned. -/
def readCoverpointBin (cp : Nat) (tbl : Dict (Nat × Int)) (e : Elem) : M (Dict (Nat × Int)) := do
  let b ← lift (Xml.readBin e)
  let _ ← createBin cp b.name none 1 b.count b.kind
  pure (Xml.addBin tbl b)

/-- `readCoverpointInst`, `xml_reader.py:277-289`: the coverpoint and the changed table. -/
def readCoverpointInst (cgi : Nat) (e : Elem) (tbl : Dict (Nat × Int)) : M (Nat × Dict (Nat × Int)) := do
  let cp ← createCoverpoint cgi (e.getD "name" "<unknown>") none 1 srcOTHER
  let t ← (iter "coverpointBin" e).foldlM (readCoverpointBin cp) tbl
  pure (cp, t)

/-- `readCrossBin`, `xml_reader.py:384-401` (`createBin` without kind makes a CVGBIN, `coverpoint.py:51`). -/
def readCrossBin (cr : Nat) (tbl : Dict Int) (e : Elem) : M (Dict Int) := do
  let b ← lift (Xml.readCrossBin e)
  let _ ← createBin cr b.name none 1 b.count CT.CVGBIN
  pure (Xml.addCrossBin tbl b)

/-- Resolving the crossed names, `xml_reader.py:237-245` and `:349-356`; `look` finds the coverpoint of a name. -/
def resolve (look : String → Option Nat) (e : Elem) : M (List Nat) :=
  (iter "crossExpr" e).mapM (fun x => do
    let n ← lift (Xml.exprName x)
    match look n with
    | some q => pure q
    | none => fail .userError)

/-- `readCrossInst`, `xml_reader.py:345-369`; `known` is `cg_inst_cp_m`. -/
def readCrossInst (cgi : Nat) (e : Elem) (tbl : Dict Int) (known : Dict Nat) : M (Dict Int) := do
  let l ← resolve known.get? e
  let cr ← createCross cgi (e.getD "name" "<unknown>") none 1 srcOTHER l
  (iter "crossBin" e).foldlM (readCrossBin cr) tbl

/-- `cp_m`, `xml_reader.py:193`: type coverpoint and table per name. -/
abbrev CpM := Dict (Nat × Dict (Nat × Int))
/-- `cr_m`, `xml_reader.py:192`. -/
abbrev CrM := Dict (Nat × Dict Int)

/-- One coverpoint element, `xml_reader.py:210-232`; the state is `cp_m` and `cg_inst_cp_m`.  The entry of `cp_m` is written when the bins have
been read; Python writes it before and changes its table in place. -/
def readCp (cg cgi : Nat) (st : CpM × Dict Nat) (e : Elem) : M (CpM × Dict Nat) := do
  let n := e.getD "name" "<unknown>"
  let a ← (match st.1.get? n with
    | none => do
      let c ← createCoverpoint cg n none 1 srcOTHER
      pure (c, [])
    | some a => pure a : M (Nat × Dict (Nat × Int)))
  let p ← readCoverpointInst cgi e a.2
  pure (st.1.set n (a.1, p.2), st.2.set n p.1)

/-- One cross element, `xml_reader.py:234-264`. -/
def readCr (cg cgi : Nat) (cpM : CpM) (known : Dict Nat) (crM : CrM) (e : Elem) : M CrM := do
  let n := e.getD "name" "<unknown>"
  let a ← (match crM.get? n with
    | none => do
      let l ← resolve (fun k => (cpM.get? k).map (·.1)) e
      let c ← createCross cg n none 1 srcOTHER l
      pure (c, [])
    | some a => pure a : M (Nat × Dict Int))
  let t ← readCrossInst cgi e a.2 known
  pure (crM.set n (a.1, t))

/-- One cgInstance, `xml_reader.py:197-264`. -/
def readCgInst (cg : Nat) (st : CpM × CrM) (e : Elem) : M (CpM × CrM) := do
  let cgi ← createCoverInstance cg (e.getD "name" "<unknown>") none 1 srcOTHER
  let p ← (iter "coverpoint" e).foldlM (readCp cg cgi) (st.1, [])
  let r ← (iter "cross" e).foldlM (readCr cg cgi p.1 p.2) st.2
  pure (p.1, r)

/-- `populateCoverpointType`, `xml_reader.py:333-343`. -/
def populateCoverpointType (cp : Nat) (tbl : Dict (Nat × Int)) : M Unit :=
  each (fun b => do let _ ← createBin cp b.1 none 1 b.2.2 b.2.1) tbl

/-- `populateCrossType`, `xml_reader.py:371-382`. -/
def populateCrossType (cr : Nat) (tbl : Dict Int) : M Unit :=
  each (fun b => do let _ ← createBin cr b.1 none 1 b.2 CT.CVGBIN) tbl

/-- `readCovergroup`, `xml_reader.py:190-275`.  The last two loops run over the keys and look each up; here they run over the entries
(the keys of a dictionary are distinct). -/
def readCovergroup (cg : Nat) (l : List Elem) : M Unit := do
  let st ← l.foldlM (readCgInst cg) ([], [])
  each (fun p => populateCoverpointType p.2.1 p.2.2) st.1
  each (fun p => populateCrossType p.2.1 p.2.2) st.2

/-- `readCovergroups`, `xml_reader.py:151-188`. -/
def readCovergroups (inst : Nat) (e : Elem) : M Unit :=
  each (fun p => do
    let c ← createCovergroup inst p.1 none 1 srcOTHER
    readCovergroup c p.2) (Xml.groupTypes (iter "cgInstance" e))

/-- `getScope`, `xml_reader.py:412-432`; the flags are those of `DbMerger.duFlags`. The result is the design unit and
`module_scope_m`. -/
def getScope (db : Nat) (name : String) (m : Dict Nat) : M (Nat × Dict Nat) :=
  match m.get? name with
  | some c => pure (c, m)
  | none => do
    let c ← createScope db name none 1 srcOTHER ST.DU_MODULE DbMerger.duFlags
    pure (c, m.set name c)

/-- `getInstScope`, `xml_reader.py:434-452`. The result is the instance and `inst_scope_m`. -/
def getInstScope (db : Nat) (name : String) (du : Nat) (m : Dict Nat) : M (Nat × Dict Nat) :=
  match m.get? name with
  | some c => pure (c, m)
  | none => do
    let c ← createInstance db name none 1 srcOTHER ST.INSTANCE (some du) DbMerger.instFlags
    pure (c, m.set name c)

/-- `readInstanceCoverage`, `xml_reader.py:123-147`; `ids` are the keys of `file_m`, the state is `module_scope_m` and `inst_scope_m`. -/
def readInstance (db : Nat) (ids : List Int) (st : Dict Nat × Dict Nat) (e : Elem) : M (Dict Nat × Dict Nat) := do
  let n ← lift (e.getE "name")
  let _ ← lift ((iter "id" e).mapM (Xml.readStatementId ids))
  let d ← getScope db (e.getD "moduleName" "default") st.1
  let i ← getInstScope db n d.1 st.2
  each (readCovergroups i.1) (iter "covergroupCoverage" e)
  pure (d.2, i.2)

/-- `readSourceFile`, `xml_reader.py:87-93`: the id.  File handles of the store have names, so an element without `fileName` is not
modelled (an arbitrary exception stands for it); the schema demands the attribute. -/
def readSourceFile (db : Nat) (e : Elem) : M Int := do
  let p ← lift (Xml.readFile e)
  match p.2 with
  | none => fail .typeError
  | some f => do
    let _ ← createFileHandle db f
    pure p.1

/-- `setIfEx`, `xml_reader.py:475-477`. -/
def setIfEx (n : Nat) (e : Elem) (a : String → NodeAttr) (name : String) : M Unit :=
  match e.get name with
  | none => pure ()
  | some v => assignNode n (a v)

/-- `setFloatIfEx`, `xml_reader.py:483-485`. -/
def setFloatIfEx (flt : FloatText) (n : Nat) (e : Elem) (a : Rat → NodeAttr) (name : String) : M Unit :=
  match e.get name with
  | none => pure ()
  | some v =>
    match flt.read v with
    | none => fail .valueError
    | some x => assignNode n (a x)

/-- `setIntIfEx`, `xml_reader.py:479-481`. -/
def setIntIfEx (n : Nat) (e : Elem) (a : Int → NodeAttr) (name : String) : M Unit :=
  match e.get name with
  | none => pure ()
  | some v => do
    let x ← lift (PyNum.parseInt v)
    assignNode n (a x)

/-- `readHistoryNode`, `xml_reader.py:95-121`; `now` is the clock (the constructor stores it, `setDate` overwrites it). -/
def readHistoryNode (flt : FloatText) (now : Int) (db : Nat) (e : Elem) : M Unit := do
  let n ← createHistoryNode db now none (e.get "logicalName") (e.get "physicalName")
    (match e.get "kind" with
      | none => .none
      | some k => .text k)
  let ts ← lift (e.getE "testStatus")
  assignNode n (.status (if ts = "true" then 1 else 0))
  setFloatIfEx flt n e .simTime "simtime"
  setIfEx n e .timeUnit "timeunit"
  setIfEx n e .runCwd "runCwd"
  setFloatIfEx flt n e .cpuTime "cpuTime"
  setIfEx n e .seed "seed"
  setIfEx n e .cmd "cmd"
  setIfEx n e .args "args"
  setIfEx n e .compulsory "compulsory"
  let d ← lift (Xml.dateOf e "date")
  assignNode n (.date (.text d))
  setIfEx n e .userName "userName"
  setFloatIfEx flt n e .cost "cost"
  let tc ← lift (e.getE "toolCategory")
  assignNode n (.toolCategory tc)
  let vi ← lift (e.getE "vendorId")
  assignNode n (.vendorId vi)
  let vt ← lift (e.getE "vendorTool")
  assignNode n (.vendorTool vt)
  let vv ← lift (e.getE "vendorToolVersion")
  assignNode n (.vendorToolVersion vv)
  setIntIfEx n e .sameTests "sameTests"
  setIfEx n e .comment "comment"

/-- `XmlReader.read`, `xml_reader.py:57-80`, with a new reader. -/
def read (flt : FloatText) (now : Int) (doc : Elem) : M Nat := do
  let db ← newDb
  let ids ← (iter "sourceFiles" doc).mapM (readSourceFile db)
  each (readHistoryNode flt now db) (iter "historyNodes" doc)
  let _ ← (iter "instanceCoverages" doc).foldlM (readInstance db ids) ([], [])
  pure db

end XmlReader
end Store
end Verif
