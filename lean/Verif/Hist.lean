import Verif.Db
/-!
# History nodes and databases with their side tables
-/

namespace Verif

/-- Value of the `date` field: the constructor stores an integer time stamp
(`mem_history_node.py:50`), setters and readers a string. -/
inductive DateVal where
  | stamp (t : Int)
  | text (s : String)
  deriving DecidableEq, Repr

/-- `MemHistoryNode` (`mem_history_node.py:32-60`).  `status` is the integer value of the stored
`TestStatusT` (or of the Boolean stored by the XML reader, `True == 1`).  `kind` is the text
`str(kind)`; times and cost are numbers (Python `float` or `int` values). The parent is not modelled
(no modelled code reads it). -/
structure Hist where
  logicalName : Option String
  physicalName : Option String
  kind : Option String
  status : Int
  simTime : Rat
  timeUnit : Option String
  runCwd : Option String
  cpuTime : Rat
  seed : Option String
  cmd : Option String
  args : Option String
  compulsory : Option String
  date : DateVal
  userName : Option String
  cost : Rat
  toolCategory : String
  ucisVersion : String
  vendorId : String
  vendorTool : String
  vendorToolVersion : String
  sameTests : Int
  comment : Option String
  deriving DecidableEq

/-- The constructor `mem_history_node.py:32-60`; `now` is the current time stamp. -/
def Hist.create (now : Int) (logical physical kind : Option String) : Hist :=
  { logicalName := logical, physicalName := physical, kind, status := 1, simTime := -1, timeUnit := none, runCwd := none,
    cpuTime := -1, seed := none, cmd := none, args := none, compulsory := none, date := .stamp now, userName := none,
    cost := -1, toolCategory := "unknown", ucisVersion := "1.0", vendorId := "unknown", vendorTool := "unknown",
    vendorToolVersion := "unknown", sameTests := -1, comment := none }

/-- A database (`mem_ucis.py:49-68`) with its history nodes and interned file handles. -/
structure Database where
  root : Scope
  hist : List Hist
  files : List (Option String)

end Verif
