import Verif.XmlWrite
import Verif.Assoc
/-!
# The XML reader, `xml/xml_reader.py`

Schema validation (`xml_factory.py:63`) comes first in the library; the reader itself is modelled on
all element trees.  An exception aborts the read and nothing is returned, so the loops that
only create objects are modelled as functions returning what they create.
-/

namespace Verif
namespace Xml
open PyNum

/-- `getAttrInt`, `xml_reader.py:472-473`. -/
def Elem.getInt (e : Elem) (n : String) : Except Err Int := do
  let v ← e.getE n
  parseInt v

/-- `next(e.iter(tag))` -/
def nextE (e : Elem) (t : String) : Except Err Elem :=
  match iter t e with
  | [] => .error .stopIteration
  | x :: _ => .ok x

/-- `next(e.iter(tag), None)` -/
def next? (e : Elem) (t : String) : Option Elem := (iter t e).head?

/-- Kind of a bin, `xml_reader.py:304-315`. -/
def readKind (a : String) : Except Err Nat :=
  if a = "bins" ∨ a = "default" then .ok CT.CVGBIN
  else if a = "ignore" then .ok CT.IGNOREBIN
  else if a = "illegal" then .ok CT.ILLEGALBIN
  else .error .userError

/-- The contents element of a bin, `xml_reader.py:293-302`. -/
def contentsE (e : Elem) : Except Err Elem :=
  match next? e "sequence", next? e "range" with
  | some s, _ => nextE s "contents"
  | none, some r => nextE r "contents"
  | none, none => .error .userError

/-- `readCoverpointBin`, `xml_reader.py:291-331`: the bin created in the instance; the type table gets
the same name, kind and count (`addBin`). -/
def readBin (e : Elem) : Except Err Item := do
  let contents ← contentsE e
  let kind ← readKind (e.getD "type" "default")
  let count ← contents.getInt "coverageCount"
  pure (mkBin (e.getD "name" "<unknown>") kind 1 count)

/-- Type table of a coverpoint, `xml_reader.py:320-324`: first kind, summed count. -/
def addBin (m : Dict (Nat × Int)) (b : Item) : Dict (Nat × Int) :=
  match Dict.get? m b.name with
  | none => Dict.set m b.name (b.kind, b.count)
  | some e => Dict.set m b.name (e.1, e.2 + b.count)

/-- `readCrossBin`, `xml_reader.py:384-401` (`createBin` without kind makes a CVGBIN). -/
def readCrossBin (e : Elem) : Except Err Item := do
  let contents ← nextE e "contents"
  let count ← contents.getInt "coverageCount"
  pure (mkBin (e.getD "name" "default") CT.CVGBIN 1 count)

/-- Type table of a cross, `xml_reader.py:391-394`. -/
def addCrossBin (m : Dict Int) (b : Item) : Dict Int :=
  match Dict.get? m b.name with
  | none => Dict.set m b.name b.count
  | some c => Dict.set m b.name (c + b.count)

/-- `crossExpr.text.strip()`; `None` has no `strip`. -/
def exprName (e : Elem) : Except Err String :=
  match e.text with
  | none => .error .attributeError
  | some t => .ok (String.ofList (stripL t.toList))

/-- Resolving the crossed names against known coverpoints, `xml_reader.py:230-240` and `:350-357`. -/
def resolve (known : List String) (e : Elem) : Except Err (List String) :=
  (iter "crossExpr" e).mapM (fun x => do
    let n ← exprName x
    if n ∈ known then pure n else .error .userError)

/-- Children of the type covergroup in creation order. -/
inductive Slot where
  | inst (s : Scope)
  | cp (name : String)
  | cross (name : String) (cps : List String)

/-- State of `readCovergroup`: children of the type covergroup, `cp_m` and `cr_m`
(`xml_reader.py:192-193`). -/
structure GState where
  slots : List Slot
  cpM : Dict (Dict (Nat × Int))
  crM : Dict (Dict Int)

/-- State within one cgInstance: new type-level children, tables, children of the cover-instance, and
the keys of `cg_inst_cp_m` (`xml_reader.py:208`). -/
structure IState where
  slots : List Slot
  cpM : Dict (Dict (Nat × Int))
  crM : Dict (Dict Int)
  kids : List Scope
  known : List String

/-- One coverpoint element, `xml_reader.py:210-232` with `readCoverpointInst` `:277-289`. -/
def readCp (st : IState) (e : Elem) : Except Err IState := do
  let n := e.getD "name" "<unknown>"
  let bins ← (iter "coverpointBin" e).mapM readBin
  let (old, new) := match Dict.get? st.cpM n with
    | none => (([] : Dict (Nat × Int)), [Slot.cp n])
    | some d => (d, [])
  pure { st with
    slots := st.slots ++ new
    cpM := Dict.set st.cpM n (bins.foldl addBin old)
    kids := st.kids ++ [mkCoverpoint n SrcInfo.none 1 bins]
    known := n :: st.known }

/-- One cross element, `xml_reader.py:234-264` with `readCrossInst` `:345-369`. -/
def readCr (st : IState) (e : Elem) : Except Err IState := do
  let n := e.getD "name" "<unknown>"
  let (old, new) ← (match Dict.get? st.crM n with
    | none => do
      let l ← resolve (Dict.keys st.cpM) e
      pure (([] : Dict Int), [Slot.cross n l])
    | some d => pure (d, []) : Except Err (Dict Int × List Slot))
  let cps ← resolve st.known e
  let bins ← (iter "crossBin" e).mapM readCrossBin
  pure { st with
    slots := st.slots ++ new
    crM := Dict.set st.crM n (bins.foldl addCrossBin old)
    kids := st.kids ++ [mkCross n SrcInfo.none 1 cps bins] }

/-- One cgInstance, `xml_reader.py:197-264`. -/
def readCgInst (st : GState) (e : Elem) : Except Err GState := do
  let s1 ← (iter "coverpoint" e).foldlM readCp { slots := [], cpM := st.cpM, crM := st.crM, kids := [], known := [] }
  let s2 ← (iter "cross" e).foldlM readCr s1
  pure { slots := st.slots ++ Slot.inst (mkCoverInst (e.getD "name" "<unknown>") SrcInfo.none 1 s2.kids) :: s2.slots
         cpM := s2.cpM, crM := s2.crM }

/-- `populateCoverpointType`, `xml_reader.py:333-343`. -/
def typeCp (cpM : Dict (Dict (Nat × Int))) (n : String) : Scope :=
  mkCoverpoint n SrcInfo.none 1 (((Dict.get? cpM n).getD []).map (fun b => mkBin b.1 b.2.1 1 b.2.2))

/-- `populateCrossType`, `xml_reader.py:371-382`. -/
def typeCr (crM : Dict (Dict Int)) (n : String) (cps : List String) : Scope :=
  mkCross n SrcInfo.none 1 cps (((Dict.get? crM n).getD []).map (fun b => mkBin b.1 CT.CVGBIN 1 b.2))

/-- The finished child of the type covergroup. -/
def Slot.scope (cpM : Dict (Dict (Nat × Int))) (crM : Dict (Dict Int)) : Slot → Scope
  | .inst s => s
  | .cp n => typeCp cpM n
  | .cross n l => typeCr crM n l

/-- `readCovergroup`, `xml_reader.py:190-275`. -/
def readCovergroup (name : String) (l : List Elem) : Except Err Scope := do
  let st ← l.foldlM readCgInst { slots := [], cpM := [], crM := [] }
  pure (mkCovergroup name SrcInfo.none 1 (st.slots.map (Slot.scope st.cpM st.crM)))

/-- Type name of a cgInstance, `xml_reader.py:165-169`. -/
def typeName (e : Elem) : String :=
  match next? e "cgId" with
  | none => "default"
  | some i => i.getD "cgName" "xxx"

/-- Grouping by type name, `xml_reader.py:171-174`. -/
def groupTypes (l : List Elem) : Dict (List Elem) :=
  Dict.aggregate typeName (fun o e => match o with
    | none => [e]
    | some l => l ++ [e]) [] l

/-- `readCovergroups`, `xml_reader.py:151-188`: the covergroups created. -/
def readCovergroups (e : Elem) : Except Err (List Scope) :=
  (groupTypes (iter "cgInstance" e)).mapM (fun p => readCovergroup p.1 p.2)

/-- `readStatementId`, `xml_reader.py:405-410`; `files` are the declared ids. -/
def readStatementId (files : List Int) (e : Elem) : Except Err Unit := do
  let f ← e.getInt "file"
  let _ ← e.getInt "line"
  let _ ← e.getInt "inlineCount"
  if f ∈ files then pure () else .error .keyError

/-- `getScope`, `xml_reader.py:412-432`: the design unit is created on first use.  The modules made
so far are exactly the design-unit children of the root. -/
def addModule (m : String) (tops : List Scope) : List Scope :=
  if tops.any (fun s => s.stype == ST.DU_MODULE && s.name == m) then tops else tops ++ [mkDu m SrcInfo.none 1]

/-- `getInstScope`, `xml_reader.py:434-452`, and adding the covergroups read to that instance. -/
def addInst (n m : String) (cgs : List Scope) (tops : List Scope) : List Scope :=
  if tops.any (fun s => s.stype == ST.INSTANCE && s.name == n) then
    tops.map (fun s => if s.stype == ST.INSTANCE && s.name == n then { s with children := s.children ++ cgs } else s)
  else tops ++ [mkInstance n SrcInfo.none 1 (some ⟨m, SrcInfo.none, 1⟩) cgs]

/-- `readInstanceCoverage`, `xml_reader.py:123-147`. -/
def readInstance (files : List Int) (tops : List Scope) (e : Elem) : Except Err (List Scope) := do
  let n ← e.getE "name"
  let _ ← (iter "id" e).mapM (readStatementId files)
  let m := e.getD "moduleName" "default"
  let cgs ← (iter "covergroupCoverage" e).mapM readCovergroups
  pure (addInst n m cgs.flatten (addModule m tops))

/-- `readSourceFile`, `xml_reader.py:87-93`: id and file name; `int(None)` raises `TypeError`. -/
def readFile (e : Elem) : Except Err (Int × Option String) := do
  match e.get "id" with
  | none => .error .typeError
  | some s =>
    let z ← parseInt s
    pure (z, e.get "fileName")

/-- `setFloatIfEx`, `xml_reader.py:483-485`. -/
def floatIf (flt : FloatText) (e : Elem) (n : String) (dflt : Rat) : Except Err Rat :=
  match e.get n with
  | none => .ok dflt
  | some s =>
    match flt.read s with
    | none => .error .valueError
    | some x => .ok x

/-- `setIntIfEx`, `xml_reader.py:479-481`. -/
def intIf (e : Elem) (n : String) (dflt : Int) : Except Err Int :=
  match e.get n with
  | none => .ok dflt
  | some s => parseInt s

/-- `getAttrDateTime`, `xml_reader.py:454-458`; `strptime(None)` raises `TypeError`. -/
def dateOf (e : Elem) (n : String) : Except Err String :=
  match e.get n with
  | none => .error .typeError
  | some s => DateTime.fromIso s

/-- `readHistoryNode`, `xml_reader.py:95-121`. Attributes that are absent keep the constructor's
value; `ucisVersion` is not read. -/
def readHist (flt : FloatText) (e : Elem) : Except Err Hist := do
  let ts ← e.getE "testStatus"
  let simTime ← floatIf flt e "simtime" (-1)
  let cpuTime ← floatIf flt e "cpuTime" (-1)
  let date ← dateOf e "date"
  let cost ← floatIf flt e "cost" (-1)
  let tc ← e.getE "toolCategory"
  let vi ← e.getE "vendorId"
  let vt ← e.getE "vendorTool"
  let vv ← e.getE "vendorToolVersion"
  let same ← intIf e "sameTests" (-1)
  pure { logicalName := e.get "logicalName", physicalName := e.get "physicalName", kind := e.get "kind",
         status := if ts = "true" then 1 else 0, simTime, timeUnit := e.get "timeunit", runCwd := e.get "runCwd", cpuTime,
         seed := e.get "seed", cmd := e.get "cmd", args := e.get "args", compulsory := e.get "compulsory", date := .text date,
         userName := e.get "userName", cost, toolCategory := tc, ucisVersion := "1.0", vendorId := vi, vendorTool := vt,
         vendorToolVersion := vv, sameTests := same, comment := e.get "comment" }

/-- Interned file handles, `mem_ucis.py:85-88`. -/
def intern (l : List (Option String)) (f : Option String) : List (Option String) := if f ∈ l then l else l ++ [f]

/-- `XmlReader.read`, `xml_reader.py:57-80`. -/
def read (flt : FloatText) (doc : Elem) : Except Err Database := do
  let files ← (iter "sourceFiles" doc).mapM readFile
  let hist ← (iter "historyNodes" doc).mapM (readHist flt)
  let tops ← (iter "instanceCoverages" doc).foldlM (readInstance (files.map (·.1))) []
  pure { root := { emptyDb with children := tops }, hist, files := (files.map (·.2)).foldl intern [] }

end Xml
end Verif
