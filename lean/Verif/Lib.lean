import Verif.Tools
/-!
# The binding to a native UCIS library, `src/ucis/lib`

The classes of `ucis.lib` wrap a C library through `ctypes`.  The library itself is outside the repository: here it is an arbitrary
function `Native` that answers every call depending on all the calls made before.  A method of the binding is a program `L α` that makes C
calls and returns a Python value or raises.  The trace of the C calls, with the arguments as the library gets them (after the
conversions of `ctypes`), is the observable effect.

Simplifications, for the whole file: a `void *` is `Option Nat` (`ctypes` shows the null pointer as `None`); `char *` is a text (the
bytes of `str.encode`; a library reads them up to the first NUL); logging is left out; the error handler (`libucis.py:125-135`) raises in a
callback, which `ctypes` prints and ignores, so it has no effect; `ctypes.ArgumentError` is `typeError`.
-/

namespace Verif
namespace Lib
open Tools

/-- `_LibSourceInfo`, `lib_source_info.py:28-35`. -/
structure CSrc where
  filehandle : Option Nat
  line : Int
  token : Int
  deriving DecidableEq, Repr

/-- The functions of `fspec` (`libucis.py:48-115`) that the binding calls, with the C arguments. -/
inductive CCall where
  | open (file : Option String)
  | write (db : Nat) (file : String) (scope : Option Nat) (recurse covertype : Int)
  | close (db : Nat)
  | createHistoryNode (db : Nat) (parent : Option Nat) (logical physical : String) (kind : Int)
  | createScope (db : Nat) (parent : Option Nat) (name : Option String) (src : Option CSrc) (weight source : Int) (type : Nat) (flags : Int)
  | createInstance (db : Nat) (parent : Option Nat) (name : String) (src : Option CSrc) (weight source : Int) (type : Nat)
      (du : Option Nat) (flags : Int)
  | createCross (db : Nat) (parent : Option Nat) (name : String) (src : Option CSrc) (weight source : Int) (points : List (Option Nat))
  | createNextCover (db : Nat) (parent : Option Nat) (name : String) (data : CCovData) (src : Option CSrc)
  | createToggle (db : Nat) (parent : Option Nat) (name : String) (canonical : Option String) (flags : Nat) (metric type dir : Int)
  | setInt (db obj : Nat) (coverindex property value : Int)
  | setString (db obj : Nat) (coverindex property : Int) (value : String)
  | createFileHandle (db : Nat) (filename : String) (workdir : Option String)
  | setTestData (db : Nat) (node : Option Nat) (data : CTestData)
  | historyIterate (db : Nat) (node : Option Nat) (kind : Nat)
  | historyScan (db : Nat) (iter : Option Nat)
  | scopeIterate (db : Nat) (scope : Option Nat) (mask : Nat)
  | scopeScan (db : Nat) (iter : Option Nat)
  | freeIterator (db : Nat) (iter : Option Nat)
  | getScopeSourceInfo (db : Nat) (scope : Option Nat)
  | getFileName (db : Nat) (file : Option Nat)
  deriving DecidableEq

/-- What a C call gives back: a pointer, an integer, a `char *`, a filled source location.  Each function uses one of them. -/
structure Ret where
  ptr : Option Nat := none
  int : Int := 0
  text : Option String := none
  src : CSrc := ⟨none, 0, 0⟩

/-- A native library: its answer to a call after a sequence of calls. -/
abbrev Native := List CCall → CCall → Ret

/-- Programs that call the library. -/
def L (α : Type) : Type := Native → List CCall → Except Err α × List CCall

instance : Monad L where
  pure a := fun _ t => (.ok a, t)
  bind x f := fun o t =>
    match x o t with
    | (.ok a, t') => f a o t'
    | (.error e, t') => (.error e, t')

def fail {α : Type} (e : Err) : L α := fun _ t => (.error e, t)
def lift {α : Type} (x : Except Err α) : L α := fun _ t => (x, t)
/-- `get_lib().f(...)`: `FuncMap.__getattr__` and the `CFUNCTYPE` object, `libucis.py:31-44`, `:138-150`. -/
def call (c : CCall) : L Ret := fun o t => (.ok (o t c), t ++ [c])

/-- `IntProperty` and `StrProperty` numbers used below (`int_property.py:28-59`, `str_property.py:28-58`). -/
def SCOPE_GOAL : Int := 4
def COVER_GOAL : Int := 16
def COVER_LIMIT : Int := 17
def COVER_WEIGHT : Int := 18
def TEST_STATUS : Int := 19
def CVG_ATLEAST : Int := 24
def CVG_AUTOBINMAX : Int := 25
def CVG_DETECTOVERLAP : Int := 26
def CVG_STROBE : Int := 28
def CVG_PERINSTANCE : Int := 29
def CVG_GETINSTCOV : Int := 30
def CVG_MERGEINSTANCES : Int := 31
def COMMENT : Int := 14

/-- A Python object of the binding: `LibObj.db`, `LibObj.obj` (`lib_obj.py:33-35`). -/
structure Ref where
  db : Nat
  obj : Option Nat
  deriving DecidableEq, Repr

/-- The file of a `SourceInfo`: `None`, a file handle of the binding (with its `fh`), or a file handle of another
implementation, which has no attribute `fh` (`mem/mem_file_handle.py`). -/
inductive PyFile where
  | none
  | native (fh : Option Nat)
  | other
  deriving DecidableEq

/-- `SourceInfo`, `source_info.py:26-31`. -/
structure PySrc where
  file : PyFile
  line : Int
  token : Int
  deriving DecidableEq

/-- `_LibSourceInfo.ctor`, `lib_source_info.py:37-42`. -/
def srcCtor (s : PySrc) : Except Err CSrc :=
  match s.file with
  | .native fh => .ok ⟨fh, toCInt s.line, toCInt s.token⟩
  | _ => .error .attributeError

/-- `None if srcinfo is None else byref(_LibSourceInfo.ctor(srcinfo))` -/
def srcPtr : Option PySrc → L (Option CSrc)
  | none => pure none
  | some s => do
    let c ← lift (srcCtor s)
    pure (some c)

/-- `str.encode(name)`: `TypeError` on `None`. -/
def encode : Option String → L String
  | some s => pure s
  | none => fail .typeError

/-! ## `LibObj`, `lib_obj.py` -/

/-- `obj = self.db if self.obj is None else self.obj`, `lib_obj.py:49`, `:76` -/
def Ref.target (r : Ref) : Nat := r.obj.getD r.db

/-- `setIntProperty`, `lib_obj.py:44-50`. -/
def setIntProperty (r : Ref) (coverindex property value : Int) : L Unit := do
  let _ ← call (.setInt r.db r.target (toCInt coverindex) (toCInt property) (toCInt value))
  pure ()

/-- `setStringProperty`, `lib_obj.py:71-82`. -/
def setStringProperty (r : Ref) (coverindex property : Int) (value : Option String) : L Unit := do
  let v ← encode value
  let _ ← call (.setString r.db r.target (toCInt coverindex) (toCInt property) v)
  pure ()

/-- `getIntProperty`, `lib_obj.py:37-42` (found before `Scope.getIntProperty` in the method resolution order). -/
def getIntProperty (_ : Ref) (_ _ : Int) : L Int := fail .notImplemented
/-- `getRealProperty`, `setRealProperty`, `lib_obj.py:52-63`. -/
def getRealProperty (_ : Ref) (_ _ : Int) : L Rat := fail .notImplemented
def setRealProperty (_ : Ref) (_ _ : Int) (_ : Rat) : L Unit := fail .notImplemented
/-- `getStringProperty`, `lib_obj.py:65-69`. -/
def getStringProperty (_ : Ref) (_ _ : Int) : L String := fail .notImplemented
/-- `getHandleProperty`, `setHandleProperty`, `lib_obj.py:84-95`. -/
def getHandleProperty (_ : Ref) (_ _ : Int) : L Ref := fail .notImplemented
def setHandleProperty (_ : Ref) (_ _ : Int) (_ : Ref) : L Unit := fail .notImplemented

/-! ## Options, `lib_scope.py:52-56`, `lib_cvg_scope.py`, `lib_covergroup.py:31-47`, `lib_cover_type.py`, `lib_history_node.py:42-46` -/

/-- `1 if b else 0` -/
def flag (b : Bool) : Int := if b then 1 else 0

/-- `setGoal`, `lib_scope.py:55-56`. -/
def setGoal (r : Ref) (g : Int) : L Unit := setIntProperty r (-1) SCOPE_GOAL g
/-- `getGoal`, `lib_scope.py:52-53`. -/
def getGoal (r : Ref) : L Int := getIntProperty r (-1) SCOPE_GOAL
/-- `setAtLeast`, `lib_cvg_scope.py:22-23`. -/
def setAtLeast (r : Ref) (n : Int) : L Unit := setIntProperty r (-1) CVG_ATLEAST n
/-- `getAtLeast`, `lib_cvg_scope.py:19-20`. -/
def getAtLeast (r : Ref) : L Int := getIntProperty r (-1) CVG_ATLEAST
/-- `setAutoBinMax`, `lib_cvg_scope.py:28-29`. -/
def setAutoBinMax (r : Ref) (n : Int) : L Unit := setIntProperty r (-1) CVG_AUTOBINMAX n
/-- `setDetectOverlap`, `lib_cvg_scope.py:34-36`. -/
def setDetectOverlap (r : Ref) (b : Bool) : L Unit := setIntProperty r (-1) CVG_DETECTOVERLAP (flag b)
/-- `setStrobe`, `lib_cvg_scope.py:41-43`. -/
def setStrobe (r : Ref) (b : Bool) : L Unit := setIntProperty r (-1) CVG_STROBE (flag b)
/-- `setComment`, `lib_cvg_scope.py:48-49`. -/
def setComment (r : Ref) (c : Option String) : L Unit := setStringProperty r (-1) COMMENT c
/-- `getComment`, `lib_cvg_scope.py:45-46`. -/
def getComment (r : Ref) : L String := getStringProperty r (-1) COMMENT
/-- `setPerInstance`, `lib_covergroup.py:34-35`. -/
def setPerInstance (r : Ref) (b : Bool) : L Unit := setIntProperty r (-1) CVG_PERINSTANCE (flag b)
/-- `getPerInstance`, `lib_covergroup.py:31-32`. -/
def getPerInstance (r : Ref) : L Bool := do
  let x ← getIntProperty r (-1) CVG_PERINSTANCE
  pure (decide (x = 1))
/-- `setGetInstCoverage`, `lib_covergroup.py:40-41`. -/
def setGetInstCoverage (r : Ref) (b : Bool) : L Unit := setIntProperty r (-1) CVG_GETINSTCOV (flag b)
/-- `setMergeInstances`, `lib_covergroup.py:46-47`. -/
def setMergeInstances (r : Ref) (b : Bool) : L Unit := setIntProperty r (-1) CVG_MERGEINSTANCES (flag b)
/-- `setTestStatus`, `lib_history_node.py:45-46`. -/
def setTestStatus (r : Ref) (s : Int) : L Unit := setIntProperty r (-1) TEST_STATUS s
/-- `getTestStatus`, `lib_history_node.py:42-43`. -/
def getTestStatus (r : Ref) : L Int := getIntProperty r (-1) TEST_STATUS

/-! ## Constructors of the wrappers -/

/-- `LibScope.__init__`, `lib_scope.py:47-50`, with `Scope.__init__`, `scope.py:40-41`: every wrapper sets the goal to 100. -/
def mkScope (db : Nat) (obj : Option Nat) : L Ref := do
  let r : Ref := ⟨db, obj⟩
  setGoal r 100
  pure r

/-- `CvgScope.__init__`, `cvg_scope.py:30-35` (`CovScope.__init__`, `cov_scope.py:28-30`, does not call `Scope.__init__`). -/
def initCvgScope (r : Ref) : L Unit := do
  setAtLeast r 1
  setAutoBinMax r 64
  setDetectOverlap r false
  setStrobe r false

/-- `LibCvgScope.__init__`, `lib_cvg_scope.py:15-17`. -/
def mkCvgScope (db : Nat) (obj : Option Nat) : L Ref := do
  let r ← mkScope db obj
  initCvgScope r
  pure r

/-- `LibCovergroup.__init__`, `lib_covergroup.py:27-29`, with `Covergroup.__init__`, `covergroup.py:35-43`. -/
def mkCovergroup (db : Nat) (obj : Option Nat) : L Ref := do
  let r ← mkCvgScope db obj
  initCvgScope r
  setPerInstance r false
  setMergeInstances r true
  setGetInstCoverage r false
  setComment r (some "")
  pure r

/-- `LibCoverpoint.__init__`, `lib_coverpoint.py:18-20`, with `Coverpoint.__init__`, `coverpoint.py:34-36`. -/
def mkCoverpoint (db : Nat) (obj : Option Nat) : L Ref := do
  let r ← mkCvgScope db obj
  initCvgScope r
  setComment r (some "")
  pure r

/-- `LibCross.__init__`, `lib_cross.py:16-18`; `Cross.__init__`, `cross.py:28-29`, does nothing. -/
def mkCross (db : Nat) (obj : Option Nat) : L Ref := mkCvgScope db obj

/-! ## `LibScope`, `lib_scope.py` -/

/-- `createScope`, `lib_scope.py:64-89`. -/
def createScope (s : Ref) (name : Option String) (src : Option PySrc) (weight source : Int) (type : Int) (flags : Int) : L Ref := do
  let p ← srcPtr src
  let x ← call (.createScope s.db s.obj name p (toCInt weight) (toCInt source) (toUnsigned 64 type) (toCInt flags))
  match x.ptr with
  | none => fail .userError
  | some h => mkScope s.db (some h)

/-- `createInstance`, `lib_scope.py:91-115`. `du` is `None` or an object of the binding. -/
def createInstance (s : Ref) (name : Option String) (src : Option PySrc) (weight source : Int) (type : Int) (du : Option Ref) (flags : Int) :
    L Ref := do
  let p ← srcPtr src
  let n ← encode name
  let d ← match du with
    | some d => pure d.obj
    | none => fail .attributeError
  let x ← call (.createInstance s.db s.obj n p (toCInt weight) (toCInt source) (toUnsigned 64 type) d (toCInt flags))
  match x.ptr with
  | none => fail .userError
  | some h => mkScope s.db (some h)

/-- `createCovergroup`, `lib_scope.py:117-135`. -/
def createCovergroup (s : Ref) (name : Option String) (src : Option PySrc) (weight source : Int) : L Ref := do
  let p ← srcPtr src
  let n ← encode name
  let x ← call (.createScope s.db s.obj (some n) p (toCInt weight) (toCInt source) ST.COVERGROUP 0)
  mkCovergroup s.db x.ptr

/-- `createToggle`, `lib_scope.py:137-153`. -/
def createToggle (s : Ref) (name : Option String) (canonical : Option String) (flags metric type dir : Int) : L Ref := do
  let n ← encode name
  let x ← call (.createToggle s.db s.obj n canonical (toUnsigned 32 flags) (toCInt metric) (toCInt type) (toCInt dir))
  mkScope s.db x.ptr

/-- `createNextCover`, `lib_scope.py:155-169`: a `LibCoverIndex` (`lib_cover_index.py:10-17`) with the index. -/
def createNextCover (s : Ref) (name : Option String) (data : CovData) (src : Option PySrc) : L (Ref × Int) := do
  let p ← srcPtr src
  let d ← lift (libCoverData data)
  let n ← encode name
  let x ← call (.createNextCover s.db s.obj n d p)
  pure (s, x.int)

/-- `getSourceInfo`, `lib_scope.py:171-177`, and `LibSourceInfo.ctor`, `lib_source_info.py:50-52`. -/
def getSourceInfo (s : Ref) : L PySrc := do
  let x ← call (.getScopeSourceInfo s.db s.obj)
  pure ⟨.native x.src.filehandle, x.src.line, x.src.token⟩

/-! ## Covergroups, coverpoints, crosses -/

/-- `createCoverpoint`, `lib_covergroup.py:49-64`. -/
def createCoverpoint (s : Ref) (name : Option String) (src : Option PySrc) (weight source : Int) : L Ref := do
  let cp ← createScope s name src weight source ST.COVERPOINT 0
  mkCoverpoint s.db cp.obj

/-- `createCross`, `lib_covergroup.py:66-89`. -/
def createCross (s : Ref) (name : Option String) (src : Option PySrc) (weight source : Int) (points : List Ref) : L Ref := do
  let p ← srcPtr src
  let n ← encode name
  let x ← call (.createCross s.db s.obj n p (toCInt weight) (toCInt source) (points.map Ref.obj))
  mkCross s.db x.ptr

/-- `createCoverInstance`, `lib_covergroup.py:91-110`. -/
def createCoverInstance (s : Ref) (name : Option String) (src : Option PySrc) (weight source : Int) : L Ref := do
  let p ← srcPtr src
  let n ← encode name
  let x ← call (.createScope s.db s.obj (some n) p (toCInt weight) (toCInt source) ST.COVERINSTANCE 0)
  mkCovergroup s.db x.ptr

/-- The `CoverData` of a bin: `lib_coverpoint.py:30-37`, `lib_cross.py:27-34`.  The attribute `at_least` is set too, but no field of
`LibCoverData` takes it. -/
def binData (kind : Nat) (count : Int) : CovData := ⟨kind, 25, count, 1, 1, 0, 0⟩

/-- `LibCoverpoint.createBin`, `lib_coverpoint.py:22-44`. -/
def createBin (s : Ref) (name : Option String) (src : Option PySrc) (_atLeast count : Int) (kind : Nat) : L (Ref × Int) :=
  createNextCover s name (binData kind count) src

/-- `LibCross.createBin`, `lib_cross.py:20-40`: there is no parameter for the kind; a sixth argument raises `TypeError`. -/
def createCrossBin (s : Ref) (name : Option String) (src : Option PySrc) (_atLeast count : Int) (kind : Option Nat) : L (Ref × Int) :=
  match kind with
  | some _ => fail .typeError
  | none => createNextCover s name (binData CT.CVGBIN count) src

/-! ## Iterators -/

/-- `LibScopeIterator`, `lib_scope_iterator.py:11-13`, and `LibScope.scopes`, `lib_scope.py:179-180`.  The third parameter is `c_uint32`
(`libucis.py:100-102`). -/
def scopes (s : Ref) (mask : Int) : L Ref := do
  let x ← call (.scopeIterate s.db s.obj (toUnsigned 32 mask))
  pure ⟨s.db, x.ptr⟩

/-- `LibScopeIterator.__next__`, `lib_scope_iterator.py:18-26`: `none` is `StopIteration`. -/
def scopeNext (it : Ref) : L (Option Ref) := do
  let x ← call (.scopeScan it.db it.obj)
  match x.ptr with
  | none => do
    let _ ← call (.freeIterator it.db it.obj)
    pure none
  | some h => do
    let r ← mkScope it.db (some h)
    pure (some r)

/-- A `for` loop over the iterator that collects the elements, `list(it)`; `none` if it does not end within `n` steps. -/
def collect : Nat → Ref → L (Option (List Ref))
  | 0, _ => pure none
  | n + 1, it => do
    let x ← scopeNext it
    match x with
    | none => pure (some [])
    | some r => do
      let l ← collect n it
      pure (l.map (r :: ·))

/-- `list(s.scopes(mask))`. -/
def listScopes (n : Nat) (s : Ref) (mask : Int) : L (Option (List Ref)) := do
  let it ← scopes s mask
  collect n it

/-- `LibHistoryNodeIterator.__init__`, `lib_history_node_iterator.py:12-14`. -/
def historyIter (db : Nat) (node : Option Nat) (kind : Int) : L Ref := do
  let x ← call (.historyIterate db node (toUnsigned 32 kind))
  pure ⟨db, x.ptr⟩

/-- `LibHistoryNodeIterator.__next__`, `lib_history_node_iterator.py:19-26`: `ucis_FreeIterator` takes two arguments and gets one. -/
def historyNext (it : Ref) : L (Option Ref) := do
  let x ← call (.historyScan it.db it.obj)
  match x.ptr with
  | none => fail .typeError
  | some h => pure (some ⟨it.db, some h⟩)

/-! ## History nodes, files, databases -/

/-- `LibHistoryNode.setTestData`, `lib_history_node.py:24-30`. -/
def setTestData (r : Ref) (t : TestData) : L Unit := do
  let c ← lift (libTestData t)
  let _ ← call (.setTestData r.db r.obj c)
  pure ()

/-- `LibTestData()`: all fields zero. -/
def zeroTestData : CTestData := ⟨0, 0, none, none, 0, none, none, none, 0, none, none, 0, none⟩

/-- `LibHistoryNode.getTestData`, `lib_history_node.py:32-40`: calls `ucis_SetTestData`, and a pointer has no method `to_testdata`. -/
def getTestData (r : Ref) : L TestData := do
  let _ ← call (.setTestData r.db r.obj zeroTestData)
  fail .attributeError

/-- A Python object that stands for a text: `None`, a `str`, or a `bytes` object (here with the text that it encodes). -/
inductive PyText where
  | none
  | str (s : String)
  | bytes (s : String)
  deriving DecidableEq

/-- What `ctypes` makes of a result of type `char *`, `libucis.py:112-114`. -/
def charResult : Option String → PyText
  | Option.none => .none
  | some s => .bytes s

/-- `LibFileHandle.getFileName`, `lib_file_handle.py:34-35`. -/
def getFileName (db : Nat) (fh : Option Nat) : L PyText := do
  let x ← call (.getFileName db fh)
  pure (charResult x.text)

/-- `LibUCIS.__init__`, `lib_ucis.py:39-49`. -/
def openDb (file : Option String) : L Ref := do
  let x ← call (.open file)
  match x.ptr with
  | none => fail .userError
  | some db => mkScope db none

/-- `isModified`, `modifiedSinceSim`, `getNumTests`, `lib_ucis.py:51-58`: `ucis_GetIntProperty` is not among the loaded functions
(`libucis.py:39-43` raises). -/
def isModified (_ : Ref) : L Bool := fail .userError
def modifiedSinceSim (_ : Ref) : L Bool := fail .userError
def getNumTests (_ : Ref) : L Int := fail .userError

/-- `createFileHandle`, `lib_ucis.py:67-73`: the `fh` of the `LibFileHandle`. -/
def createFileHandle (s : Ref) (filename : Option String) (workdir : Option String) : L (Option Nat) := do
  let n ← encode filename
  let x ← call (.createFileHandle s.db n workdir)
  pure x.ptr

/-- `createHistoryNode`, `lib_ucis.py:76-92`: a parent object is passed as it is, which `ctypes` refuses for `void *`. -/
def createHistoryNode (s : Ref) (parent : Option Ref) (logical physical : Option String) (kind : Int) : L Ref := do
  let l ← encode logical
  let p ← encode physical
  match parent with
  | some _ => fail .typeError
  | none => do
    let x ← call (.createHistoryNode s.db none l p (toCInt kind))
    pure ⟨s.db, x.ptr⟩

/-- `historyNodes`, `lib_ucis.py:98-99`, calls `UCIS.historyNodes` (`ucis.py:102-103`), which raises; so does
`getHistoryNodes`, `lib_ucis.py:94-96`, with `ucis.py:105-106`. -/
def historyNodes (_ : Ref) (_ : Int) : L (List Ref) := fail .unimpl
def getHistoryNodes (s : Ref) (kind : Int) : L (List Ref) := historyNodes s kind

/-- `write`, `lib_ucis.py:101-109`: the result code is ignored; a scope object is passed as it is. -/
def writeDb (s : Ref) (file : Option String) (scope : Option Ref) (recurse : Bool) (covertype : Int) : L Unit := do
  let f ← encode file
  match scope with
  | some _ => fail .typeError
  | none => do
    let _ ← call (.write s.db f none (flag recurse) (toUnsigned 32 covertype))
    pure ()

/-- `close`, `lib_ucis.py:111-113`. -/
def closeDb (s : Ref) : L Unit := do
  let _ ← call (.close s.db)
  pure ()

end Lib
end Verif
