import Verif.XmlTree
import Verif.DateTime
import Verif.Hist
/-!
# The XML writer, `xml/xml_writer.py`

Each `write_*` method appends one element to its parent; here it returns that element.  An
exception anywhere aborts the whole write, so no partial output exists.
-/

namespace Verif
namespace Xml
open PyNum

/-- Text of numbers: `str(x)` and `float(s)` for the values of times and costs. -/
structure FloatText where
  show_ : Rat → String
  read : String → Option Rat

/-- What the writer takes from its environment: user name, the date (`date.today()`), the time
(`datetime.now()`), both already in ISO form, and float formatting. -/
structure Env where
  user : String
  today : String
  now : String
  flt : FloatText

/-- `CVGBIN|IGNOREBIN|ILLEGALBIN`, `xml_writer.py:227`, `:272`. -/
def binMask : Nat := CT.CVGBIN ||| CT.IGNOREBIN ||| CT.ILLEGALBIN

/-- `write_options`, `xml_writer.py:290-291`. -/
def optionsElem : Elem := ⟨"options", [], none, []⟩

/-- The type attribute, `xml_writer.py:237-244`: the kind is compared for equality; for another kind
the message expression `cp_bin.type` raises `AttributeError`. -/
def binType (k : Nat) : Except Err String :=
  if k = CT.CVGBIN then .ok "bins"
  else if k = CT.IGNOREBIN then .ok "ignore"
  else if k = CT.ILLEGALBIN then .ok "illegal"
  else .error .attributeError

/-- One round of the loop of `write_coverpoint_bins`, `xml_writer.py:232-256`. -/
def writeBin (i : Item) : Except Err Elem := do
  let n ← setA "name" i.name
  let t ← binType i.kind
  pure ⟨"coverpointBin", [n, ("type", t), ("key", "0")], none,
    [⟨"range", [("from", "-1"), ("to", "-1")], none, [⟨"contents", [("coverageCount", strInt i.count)], none, []⟩]⟩]⟩

/-- `write_coverpoint`, `xml_writer.py:219-227`. -/
def writeCoverpoint (cp : Scope) : Except Err Elem := do
  let n ← setA "name" cp.name
  let bins ← (cp.coverItems binMask).mapM writeBin
  pure ⟨"coverpoint", [n, ("key", "0")], none, optionsElem :: bins⟩

/-- One round of the loop of `write_cross_bins`, `xml_writer.py:277-288`. -/
def writeCrossBin (i : Item) : Except Err Elem := do
  let n ← setA "name" i.name
  pure ⟨"crossBin", [n, ("key", "0"), ("type", "default")], none,
    [⟨"index", [], some "-1", []⟩, ⟨"contents", [("coverageCount", strInt i.count)], none, []⟩]⟩

/-- One crossed coverpoint, `xml_writer.py:268-270`. -/
def writeCrossExpr (n : String) : Except Err Elem := do
  let t ← setA "" n
  pure ⟨"crossExpr", [], some t.2, []⟩

/-- `write_cross`, `xml_writer.py:260-273`; a scope of type CROSS without crossed coverpoints has no
method `getNumCrossedCoverpoints`. -/
def writeCross (cr : Scope) : Except Err Elem := do
  let n ← setA "name" cr.name
  match cr.cps with
  | none => .error .attributeError
  | some cps =>
    let exprs ← cps.mapM writeCrossExpr
    let bins ← (cr.coverItems binMask).mapM writeCrossBin
    pure ⟨"cross", [n, ("key", "0")], none, optionsElem :: (exprs ++ bins)⟩

/-- The source ids of `write_coverinstance`, `xml_writer.py:201-211`. -/
def sourceIdElem (tag : String) : Elem := ⟨tag, [("file", "1"), ("line", "1"), ("inlineCount", "1")], none, []⟩

/-- `write_coverinstance`, `xml_writer.py:190-217`. -/
def writeCoverinstance (cgName : String) (g : Scope) : Except Err Elem := do
  let n ← setA "name" g.name
  let c ← setA "cgName" cgName
  let m ← setA "moduleName" cgName
  let cps ← (g.scopes ST.COVERPOINT).mapM writeCoverpoint
  let crs ← (g.scopes ST.CROSS).mapM writeCross
  pure ⟨"cgInstance", [n, ("key", "0")], none,
    optionsElem :: ⟨"cgId", [c, m], none, [sourceIdElem "cginstSourceId", sourceIdElem "cgSourceId"]⟩ :: (cps ++ crs)⟩

/-- What the loop of `write_covergroups` writes of a covergroup, `xml_writer.py:177-188`: the
cover-instances if there are any, otherwise the covergroup itself. -/
def toWrite (cg : Scope) : List Scope :=
  match cg.scopes ST.COVERINSTANCE with
  | [] => [cg]
  | c :: t => c :: t

/-- Body of the loop of `write_covergroups`, `xml_writer.py:173-188`. -/
def writeCovergroup (cg : Scope) : Except Err Elem := do
  let es ← (toWrite cg).mapM (writeCoverinstance cg.name)
  pure ⟨"covergroupCoverage", [], none, es⟩

/-- `addId(inst, None)`, `xml_writer.py:330-342`. -/
def idElem : Elem := ⟨"id", [("file", "1"), ("line", "1"), ("inlineCount", "1")], none, []⟩

/-- `write_instance_coverages`, `xml_writer.py:162-169`. -/
def writeInstance (s : Scope) : Except Err Elem := do
  let n ← setA "name" s.name
  let cgs ← (s.scopes ST.COVERGROUP).mapM writeCovergroup
  pure ⟨"instanceCoverages", [n, ("key", "0")], none, idElem :: cgs⟩

/-- `setIfNonNull`, `xml_writer.py:322-324`. -/
def optA (n : String) : Option String → Except Err (List (String × String))
  | none => .ok []
  | some v => do let a ← setA n v; pure [a]

/-- `setIfNonNeg` for a number, `xml_writer.py:326-328`. -/
def numA (env : Env) (n : String) (x : Rat) : Except Err (List (String × String)) :=
  if 0 ≤ x then do let a ← setA n (env.flt.show_ x); pure [a] else .ok []

/-- `setIfNonNeg` for an integer. -/
def intA (n : String) (z : Int) : Except Err (List (String × String)) :=
  if 0 ≤ z then do let a ← setA n (strInt z); pure [a] else .ok []

/-- `setAttrDateTime` on a history node, `xml_writer.py:318-320`: `strptime` of an integer raises
`TypeError`. -/
def dateA (n : String) : DateVal → Except Err (String × String)
  | .stamp _ => .error .typeError
  | .text s => do let t ← DateTime.toIso s; setA n t

/-- Body of the loop of `write_history_nodes`, `xml_writer.py:102-129`; setting a `None` logical name
raises `TypeError`. -/
def writeHist (env : Env) (i : Nat) (h : Hist) : Except Err Elem := do
  let ln ← match h.logicalName with
    | none => .error .typeError
    | some s => setA "logicalName" s
  let a1 ← optA "physicalName" h.physicalName
  let a2 ← optA "kind" h.kind
  let a3 ← numA env "simtime" h.simTime
  let a4 ← optA "timeunit" h.timeUnit
  let a5 ← optA "runCwd" h.runCwd
  let a6 ← numA env "cpuTime" h.cpuTime
  let a7 ← optA "seed" h.seed
  let a8 ← optA "cmd" h.cmd
  let a9 ← optA "args" h.args
  let a10 ← optA "compulsory" h.compulsory
  let d ← dateA "date" h.date
  let a11 ← optA "userName" h.userName
  let a12 ← numA env "cost" h.cost
  let b1 ← setA "toolCategory" h.toolCategory
  let b2 ← setA "ucisVersion" h.ucisVersion
  let b3 ← setA "vendorId" h.vendorId
  let b4 ← setA "vendorTool" h.vendorTool
  let b5 ← setA "vendorToolVersion" h.vendorToolVersion
  let a13 ← intA "sameTests" h.sameTests
  let a14 ← optA "comment" h.comment
  pure ⟨"historyNodes",
    ("historyNodeId", strInt i) :: ln :: (a1 ++ a2 ++ ("testStatus", if h.status ≠ 0 then "true" else "false") ::
      (a3 ++ a4 ++ a5 ++ a6 ++ a7 ++ a8 ++ a9 ++ a10 ++ d :: (a11 ++ a12 ++ b1 :: b2 :: b3 :: b4 :: b5 :: (a13 ++ a14)))),
    none, []⟩

/-- The dummy history node, `xml_writer.py:131-157`. -/
def dummyHist (env : Env) : Except Err Elem := do
  let d ← setA "date" env.now
  pure ⟨"historyNodes",
    [("historyNodeId", "0"), ("logicalName", "dummy"), ("physicalName", "dummy"), ("kind", "dummy"), ("testStatus", "true"),
      ("simtime", "0"), ("timeunit", "0"), ("runCwd", ""), ("cpuTime", "0"), ("seed", "0"), ("cmd", ""), ("args", ""), d,
      ("userName", "dummy"), ("toolCategory", "unknown"), ("ucisVersion", "1.0"), ("vendorId", "unknown"),
      ("vendorTool", "PyUCIS"), ("vendorToolVersion", "unknown")], none, []⟩

/-- The loop of `write_history_nodes` from index `i` on. -/
def writeHists (env : Env) (i : Nat) : List Hist → Except Err (List Elem)
  | [] => .ok []
  | h :: t => do
    let e ← writeHist env i h
    let es ← writeHists env (i + 1) t
    pure (e :: es)

/-- `write_history_nodes`, `xml_writer.py:97-157`. -/
def writeHistory (env : Env) (hs : List Hist) : Except Err (List Elem) :=
  match hs with
  | [] => do let e ← dummyHist env; pure [e]
  | h :: t => writeHists env 0 (h :: t)

/-- Registering a file name, `xml_writer.py:350-353`. -/
def addFile (m : Dict Nat) (f : String) : Dict Nat :=
  if Dict.contains m f then m else Dict.set m f (m.length + 1)

mutual
/-- `find_all_files`, `xml_writer.py:345-355`, for one scope. -/
def findFiles : Scope → Dict Nat → Dict Nat
  | ⟨_, _, src, _, _, _, ch, _⟩, m =>
    findFilesL ch (match src.file with
      | none => m
      | some f => addFile m f)
termination_by structural s => s
/-- The loop over `scopes(ALL)`. -/
def findFilesL : List Scope → Dict Nat → Dict Nat
  | [], m => m
  | s :: t, m => findFilesL t (if maskHit s.stype ST.ALL then findFiles s m else m)
termination_by structural l => l
end

/-- The file table, `xml_writer.py:57-59`. -/
def fileTable (db : Scope) : Dict Nat := findFilesL db.children [("__null__file__", 1)]

/-- One round of `write_source_files`, `xml_writer.py:92-95`. -/
def writeFile (f : String × Nat) : Except Err Elem := do
  let n ← setA "fileName" f.1
  pure ⟨"sourceFiles", [n, ("id", strInt f.2)], none, []⟩

/-- `XmlWriter.write`, `xml_writer.py:53-88`: the element tree that is serialised. -/
def write (env : Env) (db : Database) : Except Err Elem := do
  let by_ ← setA "writtenBy" env.user
  let time ← setA "writtenTime" env.today
  let files ← (fileTable db.root).mapM writeFile
  let hist ← writeHistory env db.hist
  let insts ← (db.root.scopes ST.INSTANCE).mapM writeInstance
  pure ⟨"UCIS", [by_, time, ("ucisVersion", "1.0")], none, files ++ hist ++ insts⟩

end Xml
end Verif
