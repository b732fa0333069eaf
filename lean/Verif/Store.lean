import Verif.Hist
/-!
# The in-memory object model

Objects have identities: a scope is an index into `Store.objs`, a cover index (bin) an index into
`Store.bins`, a `CoverData` an index into `Store.datas`, a file handle an index into `Store.handles`, a
history node an index into `Store.nodes`.  Python code can only hold references to objects that
exist; an index beyond the end stands for `None`, whose use raises `AttributeError`.

API calls are functions `Store → Except Err α × Store`; the store is returned also when an exception is
raised.
-/

namespace Verif
namespace Store

/-! ## Objects -/

/-- The instantiated classes: `MemUCIS`, `MemScope` (design units), `MemInstanceScope`,
`MemToggleInstanceScope`, `MemCovergroup` (covergroups and cover-instances), `MemCoverpoint`, `MemCross`. -/
inductive Cls where
  | db | unit | inst | toggle | covergroup | coverpoint | cross
  deriving DecidableEq, Repr

/-- `MemCoverItem` (`mem_cover_item.py:10-22`), the cover items of instance scopes. Parent and source
location are read by nothing and left out. -/
structure Stmt where
  name : String
  data : Nat
  index : Int
  deriving DecidableEq, Repr

/-- The attributes of the scope classes.  Attributes of other classes than the own one keep their
default and are never read.  The list of crossed coverpoints given to `createCross` is copied here
(Python keeps the list object, `mem_cross.py:27`; no code changes it afterwards). -/
structure Obj where
  cls : Cls
  /-- `MemScope`, `mem_scope.py:54-66` -/
  parent : Option Nat
  name : String
  src : SrcInfo
  weight : Int
  source : Int
  stype : Nat
  flags : Int
  goal : Int
  sourceType : Int
  underDu : Int
  children : List Nat
  items : List Nat
  /-- `MemCvgScope` and `MemCovergroup`, `mem_cvg_scope.py:20-26`, `mem_covergroup.py:21-28` -/
  atLeast : Int
  autoBinMax : Int
  detectOverlap : Bool
  strobe : Int
  comment : String
  perInstance : Bool
  mergeInstances : Bool
  getInstCoverage : Bool
  /-- `MemInstanceScope`, `mem_instance_scope.py:39-40` -/
  du : Option Nat
  stmts : List Stmt
  /-- `MemCross`, `mem_cross.py:27` -/
  cps : List Nat
  /-- `MemUCIS`, `mem_ucis.py:60-65` -/
  files : Dict Nat
  hist : List Nat
  covInsts : List (String × String)
  deriving DecidableEq

/-- `CoverData` (`cover_data.py:10-20`); `at_least` is no attribute until it is assigned. -/
structure CData where
  kind : Nat
  flags : Int
  count : Int
  goal : Int
  weight : Int
  atLeast : Option Int
  deriving DecidableEq, Repr

/-- `MemCoverIndex` (`mem_cover_index.py:12-19`). -/
structure Bin where
  name : String
  data : Nat
  src : Option SrcInfo
  deriving DecidableEq, Repr

/-- The kind of a history node: `None`, a `HistoryNodeKind` (an integer), or the text the XML reader
passes (`xml_reader.py`). -/
inductive KindVal where
  | none
  | num (n : Int)
  | text (s : String)
  deriving DecidableEq, Repr

/-- A history node with the attributes that are not in `Hist`. -/
structure Node where
  parent : Option Nat
  kind : KindVal
  data : Hist

/-- All objects. -/
structure Heap where
  objs : List Obj
  bins : List Bin
  datas : List CData
  handles : List String
  nodes : List Node

/-- A program without objects. -/
def Heap.empty : Heap := ⟨[], [], [], [], []⟩

/-- A call: result or exception, and the store afterwards. -/
def M (α : Type) := Heap → Except Err α × Heap

def M.pure {α : Type} (a : α) : M α := fun s => (.ok a, s)
def M.bind {α β : Type} (x : M α) (f : α → M β) : M β := fun s =>
  match x s with
  | (.ok a, s') => f a s'
  | (.error e, s') => (.error e, s')

instance : Monad M where
  pure := M.pure
  bind := M.bind

/-- `raise`. -/
def fail {α : Type} (e : Err) : M α := fun s => (.error e, s)

/-- A computation that only reads. -/
def read {α : Type} (f : Heap → Except Err α) : M α := fun s => (f s, s)

/-- The scope behind a reference. -/
def obj (o : Nat) : M Obj := read (fun s => match s.objs[o]? with
  | some x => .ok x
  | none => .error .attributeError)

/-- The cover data behind a reference. -/
def cdata (d : Nat) : M CData := read (fun s => match s.datas[d]? with
  | some x => .ok x
  | none => .error .attributeError)

/-- The bin behind a reference. -/
def bin (b : Nat) : M Bin := read (fun s => match s.bins[b]? with
  | some x => .ok x
  | none => .error .attributeError)

/-- Changing attributes of a scope. -/
def modObj (o : Nat) (f : Obj → Obj) : M Unit := fun s => (.ok (), { s with objs := s.objs.modify o f })

/-- `addChild` (`mem_scope.py:68-69`). -/
def addChild (o c : Nat) : M Unit := modObj o (fun x => { x with children := x.children ++ [c] })

/-- Creating a scope object. -/
def allocObj (x : Obj) : M Nat := fun s => (.ok s.objs.length, { s with objs := s.objs ++ [x] })

def allocBin (b : Bin) : M Nat := fun s => (.ok s.bins.length, { s with bins := s.bins ++ [b] })

def allocData (d : CData) : M Nat := fun s => (.ok s.datas.length, { s with datas := s.datas ++ [d] })

/-! ## Constructors -/

/-- `MemScope.__init__` (`mem_scope.py:46-66`).  For plain scopes and databases nothing else runs
(`UCIS.__init__`, `ucis.py:39-40`, is empty). -/
def memScope (cls : Cls) (parent : Option Nat) (name : String) (src : Option SrcInfo) (weight source : Int) (stype : Nat)
    (flags : Int) : Obj :=
  { cls, parent, name, src := src.getD SrcInfo.none, weight, source, stype, flags, goal := -1, sourceType := 0, underDu := 0,
    children := [], items := [], atLeast := 0, autoBinMax := 0, detectOverlap := false, strobe := 0, comment := "",
    perInstance := false, mergeInstances := false, getInstCoverage := false, du := none, stmts := [], cps := [],
    files := [], hist := [], covInsts := [] }

/-- `SourceT` values used by the code (`source_t.py`). -/
def srcNONE : Int := 10
def srcOTHER : Int := 11

/-- `MemUCIS.__init__` (`mem_ucis.py:49-68`). -/
def memUcis : Obj := memScope .db none "" none 1 srcNONE ST.RESERVED 0

/-- `MemInstanceScope.__init__` (`mem_instance_scope.py:25-40`): `InstanceScope.__init__` reaches
`Scope.__init__` (`scope.py:40-41`), which sets the goal to 100. -/
def memInstance (parent : Nat) (name : String) (src : Option SrcInfo) (weight source : Int) (stype : Nat) (du : Option Nat)
    (flags : Int) : Obj :=
  { memScope .inst (some parent) name src weight source stype flags with goal := 100, du }

/-- `MemToggleInstanceScope.__init__` (`mem_toggle_instance_scope.py:12-20`). -/
def memToggle (parent : Nat) (name : String) (flags : Int) : Obj :=
  { memInstance parent name none 0 srcNONE ST.TOGGLE none flags with cls := .toggle }

/-- `MemCvgScope.__init__` followed by `CvgScope.__init__` again through `Covergroup.__init__` or
`Coverpoint.__init__` (`mem_cvg_scope.py:11-26`, `cvg_scope.py:30-35`): `CovScope.__init__` is empty, so
the goal stays -1. -/
def memCvg (cls : Cls) (parent : Nat) (name : String) (src : Option SrcInfo) (weight source : Int) (stype : Nat) : Obj :=
  { memScope cls (some parent) name src weight source stype 0 with
    atLeast := 1, autoBinMax := 64, detectOverlap := false, strobe := 0, comment := "" }

/-- `MemCovergroup.__init__` (`mem_covergroup.py:15-27`). -/
def memCovergroup (parent : Nat) (name : String) (src : Option SrcInfo) (weight source : Int) : Obj :=
  { memCvg .covergroup parent name src weight source ST.COVERGROUP with
    atLeast := 0, perInstance := true, mergeInstances := true, getInstCoverage := false }

/-- `MemCoverpoint.__init__` (`mem_coverpoint.py:15-23`). -/
def memCoverpoint (parent : Nat) (name : String) (src : Option SrcInfo) (weight source : Int) : Obj :=
  memCvg .coverpoint parent name src weight source ST.COVERPOINT

/-- `MemCross.__init__` (`mem_cross.py:15-27`). -/
def memCross (parent : Nat) (name : String) (src : Option SrcInfo) (weight source : Int) (cps : List Nat) : Obj :=
  { memCvg .cross parent name src weight source ST.CROSS with cps }

/-! ## Creation calls -/

/-- `MemUCIS()`. -/
def newDb : M Nat := allocObj memUcis

/-- The end of every creation method: create the object, `addChild`, return it. -/
def attach (o : Nat) (x : Obj) : M Nat := do
  let c ← allocObj x
  addChild o c
  pure c

/-- `createScope`: `MemInstanceScope.createScope` (`mem_instance_scope.py:45-58`) on instance scopes,
`MemScope.createScope` (`mem_scope.py:146-175`) on all others. -/
def createScope (o : Nat) (name : String) (src : Option SrcInfo) (weight source : Int) (stype : Nat) (flags : Int) : M Nat := do
  let x ← obj o
  match x.cls with
  | .inst | .toggle =>
    if maskHit stype ST.COVERGROUP then attach o (memCovergroup o name src weight source) else fail .unimpl
  | _ =>
    if ST.duAny stype then attach o (memScope .unit (some o) name src weight source stype flags)
    else if stype = ST.COVERGROUP then attach o (memCovergroup o name src weight source)
    else if stype = ST.COVERINSTANCE then attach o { memCovergroup o name src weight source with stype := ST.COVERINSTANCE }
    else if stype = ST.COVERPOINT then attach o (memCoverpoint o name src weight source)
    else fail .notImplemented

/-- `createInstance` (`mem_scope.py:177-189`), on every scope. -/
def createInstance (o : Nat) (name : String) (src : Option SrcInfo) (weight source : Int) (stype : Nat) (du : Option Nat)
    (flags : Int) : M Nat := do
  let _ ← obj o
  attach o (memInstance o name src weight source stype du flags)

/-- `createCovergroup` (`mem_scope.py:123-136`), on every scope. -/
def createCovergroup (o : Nat) (name : String) (src : Option SrcInfo) (weight source : Int) : M Nat := do
  let _ ← obj o
  attach o (memCovergroup o name src weight source)

/-- `createToggle`: `mem_instance_scope.py:73-84` on instance scopes, `mem_scope.py:191-198` on others.
The canonical name and the toggle attributes are not stored. -/
def createToggle (o : Nat) (name : String) (flags : Int) : M Nat := do
  let x ← obj o
  match x.cls with
  | .inst | .toggle => attach o (memToggle o name flags)
  | _ => fail .unimpl

/-- `createCoverpoint` (`mem_covergroup.py:53-62`); other classes have no such method. -/
def createCoverpoint (o : Nat) (name : String) (src : Option SrcInfo) (weight source : Int) : M Nat := do
  let x ← obj o
  match x.cls with
  | .covergroup => attach o (memCoverpoint o name src weight source)
  | _ => fail .attributeError

/-- `createCross` (`mem_covergroup.py:63-72`). -/
def createCross (o : Nat) (name : String) (src : Option SrcInfo) (weight source : Int) (cps : List Nat) : M Nat := do
  let x ← obj o
  match x.cls with
  | .covergroup => attach o (memCross o name src weight source cps)
  | _ => fail .attributeError

/-- `createCoverInstance` of a covergroup (`mem_covergroup.py:74-87`): `createScope` with type
`COVERINSTANCE`.  On a database the method of this name has other parameters. -/
def createCoverInstance (o : Nat) (name : String) (src : Option SrcInfo) (weight source : Int) : M Nat := do
  let x ← obj o
  match x.cls with
  | .covergroup => createScope o name src weight source ST.COVERINSTANCE 0
  | .db => fail .typeError
  | _ => fail .attributeError

/-! ## Cover items -/

/-- `CoverData(type, flags)` (`cover_data.py:10-20`). -/
def newCoverData (kind : Nat) (flags : Int) : M Nat :=
  allocData { kind, flags, count := 0, goal := 0, weight := 0, atLeast := none }

/-- Assignable attributes of `CoverData`. -/
inductive DField where
  | data | goal | weight | atLeast
  deriving DecidableEq, Repr

def CData.assign (f : DField) (v : Int) (d : CData) : CData :=
  match f with
  | .data => { d with count := v }
  | .goal => { d with goal := v }
  | .weight => { d with weight := v }
  | .atLeast => { d with atLeast := some v }

def modData (d : Nat) (f : CData → CData) : M Unit := fun s => (.ok (), { s with datas := s.datas.modify d f })

/-- `data.data = v` and the like. -/
def assignData (d : Nat) (f : DField) (v : Int) : M Unit := do
  let _ ← cdata d
  modData d (CData.assign f v)

/-- What `createNextCover` returns: the cover index object, or on instance scopes an integer. -/
inductive Cover where
  | bin (b : Nat)
  | index (i : Nat)
  deriving DecidableEq, Repr

/-- `createNextCover`: `mem_instance_scope.py:63-71` on instance scopes (own list, returns the position),
`mem_scope.py:138-144` on others.  `None` as data is rejected here; the code would store it and fail as soon
as the item is looked at. -/
def createNextCover (o : Nat) (name : String) (data : Nat) (src : Option SrcInfo) : M Cover := do
  let x ← obj o
  let _ ← cdata data
  match x.cls with
  | .inst | .toggle =>
    modObj o (fun x => { x with stmts := x.stmts ++ [⟨name, data, 0⟩] })
    pure (.index x.stmts.length)
  | _ =>
    let b ← allocBin ⟨name, data, src⟩
    modObj o (fun x => { x with items := x.items ++ [b] })
    pure (.bin b)

/-- `CoverFlagsT.IS_32BIT|HAS_GOAL|HAS_WEIGHT` (`coverpoint.py:54`). -/
def binFlags : Int := 0x19

/-- `createBin` (`coverpoint.py:44-66`); only coverpoints and crosses have it.  `rhs` is not used by the
code. -/
def createBin (o : Nat) (name : String) (src : Option SrcInfo) (atLeast count : Int) (kind : Nat) : M Cover := do
  let x ← obj o
  match x.cls with
  | .coverpoint | .cross =>
    let d ← allocData { kind, flags := binFlags, count := 0, goal := 0, weight := 0, atLeast := none }
    assignData d .data count
    assignData d .atLeast atLeast
    assignData d .goal 1
    assignData d .weight 1
    createNextCover o name d src
  | _ => fail .attributeError

/-- `incrementCover` (`mem_cover_index.py:31-32`). -/
def incrementCover (b : Nat) (amt : Int) : M Unit := do
  let x ← bin b
  let d ← cdata x.data
  assignData x.data .data (d.count + amt)

/-! ## Integer and string properties -/

/-- `IntProperty` (`int_property.py:25-58`). -/
inductive IProp where
  | isModified | modifiedSinceSim | numTests | scopeWeight | scopeGoal | scopeSourceType | numCrossedCvps | scopeIsUnderDu
  | scopeIsUnderCoverinstance | scopeNumCoveritems | scopeNumExprTerms | toggleType | toggleDir | toggleCovered
  | branchHasElse | branchIscase | coverGoal | coverLimit | coverWeight | testStatus | testCompulsory | stmtIndex
  | branchCount | fsmStateval | cvgAtleast | cvgAutobinmax | cvgDetectoverlap | cvgNumprintmissing | cvgStrobe
  | cvgPerinstance | cvgGetinstcov | cvgMergeinstances
  deriving DecidableEq, Repr

/-- A Python Boolean as 0 or 1. -/
def ofBool (b : Bool) : Int := if b then 1 else 0

/-- The position that `l[i]` means in Python: negative indices count from the end. -/
def pyPos (n : Nat) (i : Int) : Option Nat :=
  if 0 ≤ i then (if i.toNat < n then some i.toNat else none)
  else if 0 ≤ (n : Int) + i then some ((n : Int) + i).toNat else none

/-- `Scope.getIntProperty` (`scope.py:114-121`), then `Obj` (`obj.py:35-40`). -/
def scopeGet (x : Obj) (p : IProp) : Except Err Int :=
  match p with
  | .scopeGoal => .ok x.goal
  | _ => .error .unimpl

/-- `CvgScope.getIntProperty` (`cvg_scope.py:68-81`). -/
def cvgGet (x : Obj) (p : IProp) : Except Err Int :=
  match p with
  | .cvgAtleast => .ok x.atLeast
  | .cvgAutobinmax => .ok x.autoBinMax
  | .cvgDetectoverlap => .ok (ofBool x.detectOverlap)
  | .cvgStrobe => .ok x.strobe
  | _ => scopeGet x p

/-- `Covergroup.getIntProperty` (`covergroup.py:89-98`). -/
def covergroupGet (x : Obj) (p : IProp) : Except Err Int :=
  match p with
  | .cvgPerinstance => .ok (ofBool x.perInstance)
  | .cvgMergeinstances => .ok (ofBool x.mergeInstances)
  | _ => cvgGet x p

/-- `InstanceScope.getIntProperty` (`instance_scope.py:36-44`) with `getIthCoverItem`
(`mem_instance_scope.py:86-87`). -/
def instGet (x : Obj) (i : Int) (p : IProp) : Except Err Int :=
  match p with
  | .stmtIndex =>
    match (pyPos x.stmts.length i).bind (x.stmts[·]?) with
    | some t => .ok t.index
    | none => .error .indexError
  | _ => scopeGet x p

/-- `UCIS.getIntProperty` (`ucis.py:42-55`): the three methods it calls raise. -/
def ucisGet (x : Obj) (p : IProp) : Except Err Int :=
  match p with
  | .isModified | .modifiedSinceSim | .numTests => .error .unimpl
  | _ => scopeGet x p

/-- `MemScope.getIntProperty` (`mem_scope.py:92-107`); `super()` continues with the class after `MemObj` in
the method resolution order. -/
def objGet (x : Obj) (i : Int) (p : IProp) : Except Err Int :=
  match p with
  | .scopeWeight => .ok x.weight
  | .coverGoal => .ok x.goal
  | .scopeSourceType => .ok x.sourceType
  | .scopeIsUnderDu => .ok x.underDu
  | _ =>
    match x.cls with
    | .db => ucisGet x p
    | .unit => scopeGet x p
    | .inst | .toggle => instGet x i p
    | .covergroup => covergroupGet x p
    | .coverpoint | .cross => cvgGet x p

def getIntProperty (o : Nat) (i : Int) (p : IProp) : M Int := do
  let x ← obj o
  read (fun _ => objGet x i p)

/-- `Scope.setIntProperty` (`scope.py:123-131`). -/
def scopeSet (x : Obj) (p : IProp) (v : Int) : Except Err Obj :=
  match p with
  | .scopeGoal => .ok { x with goal := v }
  | _ => .error .unimpl

/-- `CvgScope.setIntProperty` (`cvg_scope.py:83-97`). -/
def cvgSet (x : Obj) (p : IProp) (v : Int) : Except Err Obj :=
  match p with
  | .cvgAtleast => .ok { x with atLeast := v }
  | .cvgAutobinmax => .ok { x with autoBinMax := v }
  | .cvgDetectoverlap => .ok { x with detectOverlap := v == 1 }
  | .cvgStrobe => .ok { x with strobe := v }
  | _ => scopeSet x p v

/-- `Covergroup.setIntProperty` (`covergroup.py:100-110`). -/
def covergroupSet (x : Obj) (p : IProp) (v : Int) : Except Err Obj :=
  match p with
  | .cvgPerinstance => .ok { x with perInstance := v == 1 }
  | .cvgMergeinstances => .ok { x with mergeInstances := v == 1 }
  | _ => cvgSet x p v

/-- `InstanceScope.setIntProperty` (`instance_scope.py:25-34`). -/
def instSet (x : Obj) (i : Int) (p : IProp) (v : Int) : Except Err Obj :=
  match p with
  | .stmtIndex =>
    match pyPos x.stmts.length i with
    | some k => .ok { x with stmts := x.stmts.modify k (fun t => { t with index := v }) }
    | none => .error .indexError
  | _ => scopeSet x p v

/-- `MemScope.setIntProperty` (`mem_scope.py:109-121`). `UCIS.setIntProperty` (`ucis.py:57-62`) only
forwards. -/
def objSet (x : Obj) (i : Int) (p : IProp) (v : Int) : Except Err Obj :=
  match p with
  | .scopeWeight => .ok { x with weight := v }
  | .coverGoal => .ok { x with goal := v }
  | .scopeSourceType => .ok { x with sourceType := v }
  | _ =>
    match x.cls with
    | .db | .unit => scopeSet x p v
    | .inst | .toggle => instSet x i p v
    | .covergroup => covergroupSet x p v
    | .coverpoint | .cross => cvgSet x p v

def setIntProperty (o : Nat) (i : Int) (p : IProp) (v : Int) : M Unit := do
  let x ← obj o
  let y ← read (fun _ => objSet x i p v)
  modObj o (fun _ => y)

/-- `MemObj.getStringProperty` (`mem_obj.py:32-37`): every scope class has it before
`CvgScope.getStringProperty` in the method resolution order; it returns `None`. -/
def getStringProperty (o : Nat) (_p : String) : M (Option String) := do
  let _ ← obj o
  pure none

/-- `MemObj.setStringProperty` (`mem_obj.py:39-44`): does nothing. -/
def setStringProperty (o : Nat) (_p _v : String) : M Unit := do
  let _ ← obj o
  pure ()

/-- `setWeight` (`mem_scope.py:74-75`). -/
def setWeight (o : Nat) (w : Int) : M Unit := do
  let _ ← obj o
  modObj o (fun x => { x with weight := w })

/-- `setGoal` (`mem_scope.py:80-81`). -/
def setGoal (o : Nat) (g : Int) : M Unit := do
  let _ ← obj o
  modObj o (fun x => { x with goal := g })

/-- `setComment` (`mem_cvg_scope.py:58-59`); other classes have no such method. -/
def setComment (o : Nat) (c : String) : M Unit := do
  let x ← obj o
  match x.cls with
  | .covergroup | .coverpoint | .cross => modObj o (fun x => { x with comment := c })
  | _ => fail .attributeError

/-- `getComment` (`mem_cvg_scope.py:55-56`). -/
def getComment (o : Nat) : M String := do
  let x ← obj o
  match x.cls with
  | .covergroup | .coverpoint | .cross => pure x.comment
  | _ => fail .attributeError

/-! ## Side tables of a database -/

/-- `createFileHandle` (`mem_ucis.py:85-88`); other classes have no such method. -/
def createFileHandle (o : Nat) (name : String) : M Nat := do
  let x ← obj o
  match x.cls with
  | .db =>
    match x.files.get? name with
    | some h => pure h
    | none => fun s =>
      (.ok s.handles.length, { s with handles := s.handles ++ [name],
                                      objs := s.objs.modify o (fun x => { x with files := x.files.set name s.handles.length }) })
  | _ => fail .attributeError

/-- `createHistoryNode` (`mem_ucis.py:92-95`); `now` is the clock. -/
def createHistoryNode (o : Nat) (now : Int) (parent : Option Nat) (logical physical : Option String) (kind : KindVal) : M Nat := do
  let x ← obj o
  match x.cls with
  | .db => fun s =>
    (.ok s.nodes.length, { s with nodes := s.nodes ++ [⟨parent, kind, Hist.create now logical physical none⟩],
                                  objs := s.objs.modify o (fun x => { x with hist := x.hist ++ [s.nodes.length] }) })
  | _ => fail .attributeError

/-- `createCoverInstance` of a database (`mem_ucis.py:97-100`): the key is the number of records so far,
`str(len(...))`. The record is represented by its name and key; the result is its position. -/
def createInstanceCoverage (o : Nat) (name : String) : M Nat := do
  let x ← obj o
  match x.cls with
  | .db =>
    modObj o (fun x => { x with covInsts := x.covInsts ++ [(name, toString x.covInsts.length)] })
    pure x.covInsts.length
  | .covergroup => fail .typeError
  | _ => fail .attributeError

/-! ## History nodes -/

/-- `TestData` (`test_data.py:27-54`), field types as in `Hist`. -/
structure TestData where
  teststatus : Int
  toolcategory : String
  date : DateVal
  simtime : Rat
  timeunit : Option String
  runcwd : Option String
  cputime : Rat
  seed : Option String
  cmd : Option String
  args : Option String
  compulsory : Option String
  user : Option String
  cost : Rat
  deriving DecidableEq

/-- `setTestData` (`history_node.py:36-49`) with the setters of `mem_history_node.py:96-169`, in the order
of the calls. -/
def Hist.setTestData (h : Hist) (t : TestData) : Hist :=
  let h := { h with status := t.teststatus }
  let h := { h with toolCategory := t.toolcategory }
  let h := { h with date := t.date }
  let h := { h with simTime := t.simtime }
  let h := { h with timeUnit := t.timeunit }
  let h := { h with runCwd := t.runcwd }
  let h := { h with cpuTime := t.cputime }
  let h := { h with seed := t.seed }
  let h := { h with cmd := t.cmd }
  let h := { h with args := t.args }
  let h := { h with compulsory := t.compulsory }
  let h := { h with userName := t.user }
  { h with cost := t.cost }

/-- The history node behind a reference. -/
def node (n : Nat) : M Node := read (fun s => match s.nodes[n]? with
  | some x => .ok x
  | none => .error .attributeError)

def modNode (n : Nat) (f : Node → Node) : M Unit := fun s => (.ok (), { s with nodes := s.nodes.modify n f })

def setTestData (n : Nat) (t : TestData) : M Unit := do
  let _ ← node n
  modNode n (fun x => { x with data := Hist.setTestData x.data t })

/-- One setter of a history node and its argument (`mem_history_node.py:96-202`). -/
inductive NodeAttr where
  | status (v : Int)
  | simTime (v : Rat)
  | timeUnit (v : String)
  | runCwd (v : String)
  | cpuTime (v : Rat)
  | seed (v : String)
  | cmd (v : String)
  | args (v : String)
  | compulsory (v : String)
  | date (v : DateVal)
  | userName (v : String)
  | cost (v : Rat)
  | toolCategory (v : String)
  | vendorId (v : String)
  | vendorTool (v : String)
  | vendorToolVersion (v : String)
  | sameTests (v : Int)
  | comment (v : String)

/-- The attribute each setter assigns (`mem_history_node.py:96-202`). -/
def Hist.assign (a : NodeAttr) (h : Hist) : Hist :=
  match a with
  | .status v => { h with status := v }
  | .simTime v => { h with simTime := v }
  | .timeUnit v => { h with timeUnit := some v }
  | .runCwd v => { h with runCwd := some v }
  | .cpuTime v => { h with cpuTime := v }
  | .seed v => { h with seed := some v }
  | .cmd v => { h with cmd := some v }
  | .args v => { h with args := some v }
  | .compulsory v => { h with compulsory := some v }
  | .date v => { h with date := v }
  | .userName v => { h with userName := some v }
  | .cost v => { h with cost := v }
  | .toolCategory v => { h with toolCategory := v }
  | .vendorId v => { h with vendorId := v }
  | .vendorTool v => { h with vendorTool := v }
  | .vendorToolVersion v => { h with vendorToolVersion := v }
  | .sameTests v => { h with sameTests := v }
  | .comment v => { h with comment := some v }

/-- Calling one of those setters (`mem_history_node.py:96-202`). -/
def assignNode (n : Nat) (a : NodeAttr) : M Unit := do
  let _ ← node n
  modNode n (fun x => { x with data := Hist.assign a x.data })

/-- `MemHistoryNode.getIntProperty` (`mem_history_node.py:65-72`): `1 if self.m_test_status else 0`. -/
def nodeGet (x : Node) (p : IProp) : Except Err Int :=
  match p with
  | .testStatus => .ok (ofBool (x.data.status != 0))
  | _ => .error .unimpl

/-- `MemHistoryNode.setIntProperty` (`mem_history_node.py:74-82`): stores the Boolean `value == 1`. -/
def nodeSet (x : Node) (p : IProp) (v : Int) : Except Err Node :=
  match p with
  | .testStatus => .ok { x with data := { x.data with status := ofBool (v == 1) } }
  | _ => .error .unimpl

def getNodeProperty (n : Nat) (p : IProp) : M Int := do
  let x ← node n
  read (fun _ => nodeGet x p)

def setNodeProperty (n : Nat) (p : IProp) (v : Int) : M Unit := do
  let x ← node n
  let y ← read (fun _ => nodeSet x p v)
  modNode n (fun _ => y)

/-! ## Iterators -/

/-- `MemScopeIterator.__next__` (`mem_scope_iterator.py:19-35`) and `MemCoverIndexIterator.__next__`
(`mem_cover_index_iterator.py:20-33`) and `MemHistoryNodeIterator.__next__`
(`mem_history_node_iterator.py:21-35`): the loop over the list from the current index; `hit` is the test.
The result is the element found (`none` stands for `StopIteration`) and the new index.  `fuel` bounds
the loop; `next` gives it the number of remaining elements. -/
def nextLoop {α : Type} (hit : α → Bool) (l : List α) : Nat → Nat → Option α × Nat
  | 0, i => (none, i)
  | fuel + 1, i =>
    match l[i]? with
    | none => (none, i)
    | some x => if hit x then (some x, i + 1) else nextLoop hit l fuel (i + 1)

/-- One call of `__next__` at index `i`. -/
def next {α : Type} (hit : α → Bool) (l : List α) (i : Nat) : Option α × Nat := nextLoop hit l (l.length - i) i

/-- The test of `MemScopeIterator`: `(n.getScopeType() & self.mask) != 0`. -/
def scopeHit (s : Heap) (mask : Nat) (o : Nat) : Bool :=
  match s.objs[o]? with
  | some x => maskHit x.stype mask
  | none => false

/-- The test of `MemCoverIndexIterator`: `(n.data.type & self.mask) != 0`. -/
def binHit (s : Heap) (mask : Nat) (b : Nat) : Bool :=
  match s.bins[b]? with
  | some x => match s.datas[x.data]? with
    | some d => maskHit d.kind mask
    | none => false
  | none => false

/-- `HistoryNodeKind.ALL` (`history_node_kind.py`). -/
def kindALL : Int := 0

/-- The test of `MemHistoryNodeIterator`: `self.kind == HistoryNodeKind.ALL or hn.getKind() == self.kind`.
A text or `None` never equals an integer. -/
def nodeHit (s : Heap) (kind : Int) (n : Nat) : Bool :=
  kind == kindALL || match s.nodes[n]? with
    | some x => x.kind == .num kind
    | none => false

/-- `list(iterator)`: `__next__` until `StopIteration`. -/
def drain {α : Type} (hit : α → Bool) (l : List α) : Nat → Nat → List α
  | 0, _ => []
  | fuel + 1, i =>
    match next hit l i with
    | (none, _) => []
    | (some x, j) => x :: drain hit l fuel j

/-- An iterator object made by `scopes(mask)`, `coverItems(mask)` or `historyNodes(kind)` of an object: it
holds a reference to the live list of that object (`mem_scope.py:200-204`, `mem_ucis.py:102-103`). -/
structure Iter where
  o : Nat
  mask : Nat
  idx : Nat
  deriving DecidableEq, Repr

/-- `__next__` of a `MemScopeIterator`; `none` stands for `StopIteration`. -/
def nextScope (it : Iter) (s : Heap) : Option Nat × Iter :=
  match s.objs[it.o]? with
  | none => (none, it)
  | some x => let r := next (scopeHit s it.mask) x.children it.idx; (r.1, { it with idx := r.2 })

/-- `__next__` of a `MemCoverIndexIterator`. -/
def nextItem (it : Iter) (s : Heap) : Option Nat × Iter :=
  match s.objs[it.o]? with
  | none => (none, it)
  | some x => let r := next (binHit s it.mask) x.items it.idx; (r.1, { it with idx := r.2 })

/-- `list(o.scopes(mask))` (`mem_scope.py:200-201`). -/
def scopes (o : Nat) (mask : Nat) : M (List Nat) := do
  let x ← obj o
  read (fun s => .ok (drain (scopeHit s mask) x.children (x.children.length + 1) 0))

/-- `list(o.coverItems(mask))` (`mem_scope.py:203-204`). -/
def coverItems (o : Nat) (mask : Nat) : M (List Nat) := do
  let x ← obj o
  read (fun s => .ok (drain (binHit s mask) x.items (x.items.length + 1) 0))

/-- `db.getHistoryNodes(kind)` (`ucis.py:105-106`, `mem_ucis.py:102-103`). -/
def getHistoryNodes (o : Nat) (kind : Int) : M (List Nat) := do
  let x ← obj o
  match x.cls with
  | .db => read (fun s => .ok (drain (nodeHit s kind) x.hist (x.hist.length + 1) 0))
  | _ => fail .attributeError

/-! ## Programs -/

/-- The calls that change the store. -/
inductive Call where
  | newDb
  | createScope (o : Nat) (name : String) (src : Option SrcInfo) (weight source : Int) (stype : Nat) (flags : Int)
  | createInstance (o : Nat) (name : String) (src : Option SrcInfo) (weight source : Int) (stype : Nat) (du : Option Nat) (flags : Int)
  | createCovergroup (o : Nat) (name : String) (src : Option SrcInfo) (weight source : Int)
  | createToggle (o : Nat) (name : String) (flags : Int)
  | createCoverpoint (o : Nat) (name : String) (src : Option SrcInfo) (weight source : Int)
  | createCross (o : Nat) (name : String) (src : Option SrcInfo) (weight source : Int) (cps : List Nat)
  | createCoverInstance (o : Nat) (name : String) (src : Option SrcInfo) (weight source : Int)
  | newCoverData (kind : Nat) (flags : Int)
  | assignData (d : Nat) (f : DField) (v : Int)
  | createNextCover (o : Nat) (name : String) (data : Nat) (src : Option SrcInfo)
  | createBin (o : Nat) (name : String) (src : Option SrcInfo) (atLeast count : Int) (kind : Nat)
  | incrementCover (b : Nat) (amt : Int)
  | setIntProperty (o : Nat) (i : Int) (p : IProp) (v : Int)
  | setStringProperty (o : Nat) (p v : String)
  | setWeight (o : Nat) (w : Int)
  | setGoal (o : Nat) (g : Int)
  | setComment (o : Nat) (c : String)
  | createFileHandle (o : Nat) (name : String)
  | createHistoryNode (o : Nat) (now : Int) (parent : Option Nat) (logical physical : Option String) (kind : KindVal)
  | createInstanceCoverage (o : Nat) (name : String)
  | setTestData (n : Nat) (t : TestData)
  | setNodeProperty (n : Nat) (p : IProp) (v : Int)
  | assignNode (n : Nat) (a : NodeAttr)

/-- What a call returns. -/
inductive Ret where
  | none
  | scope (o : Nat)
  | data (d : Nat)
  | cover (c : Cover)
  | handle (h : Nat)
  | node (n : Nat)
  | record (i : Nat)
  deriving DecidableEq, Repr

def exec : Call → M Ret
  | .newDb => do return .scope (← Store.newDb)
  | .createScope o n s w src t f => do return .scope (← Store.createScope o n s w src t f)
  | .createInstance o n s w src t du f => do return .scope (← Store.createInstance o n s w src t du f)
  | .createCovergroup o n s w src => do return .scope (← Store.createCovergroup o n s w src)
  | .createToggle o n f => do return .scope (← Store.createToggle o n f)
  | .createCoverpoint o n s w src => do return .scope (← Store.createCoverpoint o n s w src)
  | .createCross o n s w src cps => do return .scope (← Store.createCross o n s w src cps)
  | .createCoverInstance o n s w src => do return .scope (← Store.createCoverInstance o n s w src)
  | .newCoverData k f => do return .data (← Store.newCoverData k f)
  | .assignData d f v => do Store.assignData d f v; return .none
  | .createNextCover o n d s => do return .cover (← Store.createNextCover o n d s)
  | .createBin o n s a c k => do return .cover (← Store.createBin o n s a c k)
  | .incrementCover b a => do Store.incrementCover b a; return .none
  | .setIntProperty o i p v => do Store.setIntProperty o i p v; return .none
  | .setStringProperty o p v => do Store.setStringProperty o p v; return .none
  | .setWeight o w => do Store.setWeight o w; return .none
  | .setGoal o g => do Store.setGoal o g; return .none
  | .setComment o c => do Store.setComment o c; return .none
  | .createFileHandle o n => do return .handle (← Store.createFileHandle o n)
  | .createHistoryNode o now p l ph k => do return .node (← Store.createHistoryNode o now p l ph k)
  | .createInstanceCoverage o n => do return .record (← Store.createInstanceCoverage o n)
  | .setTestData n t => do Store.setTestData n t; return .none
  | .setNodeProperty n p v => do Store.setNodeProperty n p v; return .none
  | .assignNode n a => do Store.assignNode n a; return .none

/-- A program: the calls one after the other; exceptions are caught by the caller and the next call is
made. -/
def run (s : Heap) (cs : List Call) : Heap := cs.foldl (fun s c => (exec c s).2) s

end Store
end Verif
