import Verif.Py
import Verif.Hist
/-!
# Format registry, commands, command line, file opening and C structures

A command is a function `World → Except Err α × World`: the world (files, standard output and a log of
the file operations) is returned also when an exception is raised.
-/

namespace Verif
namespace Tools

abbrev Bytes := List UInt8

/-! ## The world -/

/-- File operations of the commands. -/
inductive Event where
  /-- a file is opened for reading -/
  | read (path : String)
  /-- a file is opened for writing -/
  | write (path : String)
  | rmtree (path : String)
  | makedirs (path : String)
  /-- a report writes into a directory -/
  | report (path : String)
  deriving DecidableEq, Repr

/-- What the commands can see and change.  `writable p` says whether `open(p, "w")` succeeds. -/
structure World where
  files : String → Option Bytes
  isDir : String → Bool
  writable : String → Bool
  stdout : Bytes
  log : List Event

abbrev Cmd (α : Type) := World → Except Err α × World

namespace Cmd
variable {α β : Type}

def pure (a : α) : Cmd α := fun w => (.ok a, w)
def bind (x : Cmd α) (f : α → Cmd β) : Cmd β := fun w =>
  match x w with
  | (.ok a, w') => f a w'
  | (.error e, w') => (.error e, w')

instance : Monad Cmd where
  pure := pure
  bind := bind

/-- `raise` -/
def fail (e : Err) : Cmd α := fun w => (.error e, w)

/-- A computation without effects on the world. -/
def lift (x : Except Err α) : Cmd α := fun w => (x, w)

/-- `try: x except Exception as e: raise Exception(...)` -/
def wrap (x : Cmd α) : Cmd α := fun w =>
  match x w with
  | (.ok a, w') => (.ok a, w')
  | (.error _, w') => (.error .userError, w')

end Cmd
open Cmd

/-! ## Formats -/

/-- A database format class with the class of the databases it creates (`format_if_db.py:43-62`).

* `read` is `fmt_if().read(path)` as a function of the content of the file (`none`: no such file);
* `create` is `fmt_if().create()`;
* `write` is the method `write` of created databases: `error e` if it raises before the file is opened,
  otherwise what it writes and how it ends (`XmlUCIS.write`, `xml_ucis.py:7-12`, opens the file first). -/
structure DbIf (D : Type) where
  read : Option Bytes → Except Err D
  create : Except Err D
  write : Except Err (D → Bytes × Except Err Unit)

/-- `FormatDescDb`, `format_if_db.py:14-40`; flags Create=1, Read=2, Write=4 (`:9-12`). -/
structure DbDesc (D : Type) where
  name : String
  flags : Nat
  description : String
  fmtIf : DbIf D

/-- A report format class (`format_if_rpt.py:41-47`): what `report(db, out, [])` writes to the stream and how
it ends.  Reports into a directory (no such format exists in the library) are given by how they end. -/
structure RptIf (D : Type) where
  report : D → Bytes × Except Err Unit
  reportDir : D → Except Err Unit

/-- `FormatRptOutFlags`, `format_if_rpt.py:9-11`. -/
def rptStream : Nat := 1
def rptDir : Nat := 2

/-- `FormatDescRpt`, `format_if_rpt.py:13-39`. -/
structure RptDesc (D : Type) where
  name : String
  outFlags : Nat
  description : String
  fmtIf : RptIf D

/-! ## The registry, `rgy/format_rgy.py` -/

/-- `FormatRgy`, `format_rgy.py:27-28`. -/
structure Rgy (D : Type) where
  dbs : Dict (DbDesc D)
  rpts : Dict (RptDesc D)

namespace Rgy
variable {D : Type}

/-- `__init__`, `format_rgy.py:24-29` (the guard against a second instance is not modelled). -/
def init : Rgy D := ⟨[], []⟩

/-- `format_rgy.py:31-32` -/
def addDatabaseFormat (r : Rgy D) (d : DbDesc D) : Rgy D := { r with dbs := r.dbs.set d.name d }

/-- `format_rgy.py:34-35` -/
def addReportFormat (r : Rgy D) (d : RptDesc D) : Rgy D := { r with rpts := r.rpts.set d.name d }

/-- `list.sort()` on strings: by code points. -/
def sortNames (l : List String) : List String := l.mergeSort (fun a b => decide (a ≤ b))

/-- `format_rgy.py:37-40` -/
def getDatabaseFormats (r : Rgy D) : List String := sortNames r.dbs.keys

/-- `format_rgy.py:42-43` -/
def hasDatabaseFormat (r : Rgy D) (fmt : String) : Bool := r.dbs.contains fmt

/-- `format_rgy.py:45-46` -/
def hasReportFormat (r : Rgy D) (fmt : String) : Bool := r.rpts.contains fmt

/-- `format_rgy.py:48-51` -/
def getReportFormats (r : Rgy D) : List String := sortNames r.rpts.keys

/-- `format_rgy.py:53-54` -/
def getDatabaseDesc (r : Rgy D) (fmt : String) : Except Err (DbDesc D) := r.dbs.getE fmt

/-- `format_rgy.py:56-57` -/
def getReportDesc (r : Rgy D) (fmt : String) : Except Err (RptDesc D) := r.rpts.getE fmt

end Rgy

/-- `format_rgy.py:59-60` -/
def defaultDatabase : String := "xml"
/-- `format_rgy.py:62-63` -/
def defaultReport : String := "txt"

/-! ## The commands -/

section
variable {D : Type}

/-- `db_if.read(path)` -/
def readFile (f : DbIf D) (path : String) : Cmd D := fun w =>
  (f.read (w.files path), { w with log := w.log ++ [.read path] })

/-- `open(path, "w")`: the file is truncated; an `OSError` is `userError` here. -/
def openWrite (path : String) : Cmd Unit := fun w =>
  if w.writable path then
    (.ok (), { w with files := fun p => if p = path then some [] else w.files p, log := w.log ++ [.write path] })
  else (.error .userError, w)

/-- What has been written to an open file is there also after an exception (`with open(...)` and the
interpreter close it). -/
def emit (path : String) (out : Bytes × Except Err Unit) : Cmd Unit := fun w =>
  (out.2, { w with files := fun p => if p = path then some out.1 else w.files p })

/-- `out_db.write(path)` -/
def writeDb (f : DbIf D) (path : String) (d : D) : Cmd Unit := do
  let wr ← lift f.write
  openWrite path
  emit path (wr d)

/-- The arguments of `merge` (`__main__.py:34-47`). -/
structure MergeArgs where
  inputFormat : Option String
  outputFormat : Option String
  db : List String
  out : String

/-- `merge`, `cmd_merge.py:13-51`; `mrg` is `DbMerger.merge`, returning the destination.  The instances of the
format classes have no state, so one is used for all files.  `close` of an in-memory database does nothing
(`mem_ucis.py:108-110`). -/
def mergeCmd (rgy : Rgy D) (mrg : D → List D → Except Err D) (a : MergeArgs) : Cmd Unit := do
  let inF := a.inputFormat.getD "xml"
  let outF := a.outputFormat.getD "xml"
  if !rgy.hasDatabaseFormat inF then fail .userError
  else if !rgy.hasDatabaseFormat outF then fail .userError
  else do
    let i ← lift (rgy.getDatabaseDesc inF)
    let o ← lift (rgy.getDatabaseDesc outF)
    let dbs ← a.db.mapM (fun p => wrap (readFile i.fmtIf p))
    let out ← lift o.fmtIf.create
    let res ← wrap (lift (mrg out dbs))
    writeDb o.fmtIf a.out res

/-- The arguments of `convert` (`__main__.py:20-31`). -/
structure ConvertArgs where
  inputFormat : Option String
  outputFormat : Option String
  input : String
  out : String

/-- `convert`, `cmd_convert.py:6-36`. -/
def convertCmd (rgy : Rgy D) (mrg : D → List D → Except Err D) (a : ConvertArgs) : Cmd Unit := do
  let inF := a.inputFormat.getD "xml"
  let outF := a.outputFormat.getD "xml"
  if !rgy.hasDatabaseFormat inF then fail .userError
  else if !rgy.hasDatabaseFormat outF then fail .userError
  else do
    let i ← lift (rgy.getDatabaseDesc inF)
    let o ← lift (rgy.getDatabaseDesc outF)
    let d ← wrap (readFile i.fmtIf a.input)
    let out ← lift o.fmtIf.create
    let res ← lift (mrg out [d])
    writeDb o.fmtIf a.out res

/-- The arguments of `report` (`__main__.py:58-66`). -/
structure ReportArgs where
  inputFormat : Option String
  outputFormat : Option String
  db : String
  out : Option String

/-- `shutil.rmtree(p)`: the files below `p` are gone. -/
def rmtree (path : String) : Cmd Unit := fun w =>
  (.ok (), { w with
    files := fun p => if (path ++ "/").toList.isPrefixOf p.toList then none else w.files p
    isDir := fun p => if p = path ∨ (path ++ "/").toList.isPrefixOf p.toList then false else w.isDir p
    log := w.log ++ [.rmtree path] })

/-- `os.makedirs(p)` -/
def makedirs (path : String) : Cmd Unit := fun w =>
  (.ok (), { w with isDir := fun p => if p = path then true else w.isDir p, log := w.log ++ [.makedirs path] })

/-- A report written to standard output. -/
def emitStdout (out : Bytes × Except Err Unit) : Cmd Unit := fun w => (out.2, { w with stdout := w.stdout ++ out.1 })

/-- A report written into a directory. -/
def emitDir (path : String) (out : Except Err Unit) : Cmd Unit := fun w => (out, { w with log := w.log ++ [.report path] })

/-- The directory branch `cmd_report.py:44-55`, with what follows (`:63-66`).  If nothing exists at the path, `fp` is
not assigned; if a file exists there, the message is formatted with one argument too many
(`TypeError`); and after the report `fp.close()` is called on the path, a string.  The note printed
before the directory is removed (`:47`) is left out. -/
def reportIntoDir (f : RptIf D) (d : D) (path : String) : Cmd Unit := fun w =>
  if w.isDir path then (do rmtree path; makedirs path; emitDir path (f.reportDir d); fail .attributeError : Cmd Unit) w
  else if (w.files path).isSome then (.error .typeError, w)
  else (.error .unboundLocal, w)

/-- `report`, `cmd_report.py:13-68`. -/
def reportCmd (rgy : Rgy D) (a : ReportArgs) : Cmd Unit := do
  let inF := a.inputFormat.getD defaultDatabase
  let outF := a.outputFormat.getD defaultReport
  if !rgy.hasDatabaseFormat inF then fail .userError
  else if !rgy.hasReportFormat outF then fail .userError
  else do
    let i ← lift (rgy.getDatabaseDesc inF)
    let o ← lift (rgy.getReportDesc outF)
    let d ← readFile i.fmtIf a.db
    match a.out with
    | none =>
      if !maskHit o.outFlags rptStream then fail .userError
      else emitStdout (o.fmtIf.report d)
    | some path =>
      if maskHit o.outFlags rptStream then do
        openWrite path
        emit path (o.fmtIf.report d)
      else if maskHit o.outFlags rptDir then reportIntoDir o.fmtIf d path
      else fail .userError

end

/-! ## Listings, `cmd_list_db_formats.py`, `cmd_list_report_formats.py` -/

/-- `max_w`, `cmd_list_db_formats.py:13-16`. -/
def maxWidth (fmts : List String) : Nat := fmts.foldl (fun m f => if f.length > m then f.length else m) 0

/-- One line, `cmd_list_db_formats.py:19-24`. -/
def listLine (maxW : Nat) (fmt descr : String) : String :=
  (if fmt.length < maxW then fmt ++ String.ofList (List.replicate (maxW - fmt.length) ' ') else fmt) ++ " - " ++ descr

/-- The lines printed by `list_db_formats`, `cmd_list_db_formats.py:9-24`. -/
def listDbFormats {D : Type} (r : Rgy D) : Except Err (List String) :=
  r.getDatabaseFormats.mapM (fun f => do
    let d ← r.getDatabaseDesc f
    pure (listLine (maxWidth r.getDatabaseFormats) f d.description))

/-- The lines printed by `list_report_formats`, `cmd_list_report_formats.py:8-25`. -/
def listReportFormats {D : Type} (r : Rgy D) : Except Err (List String) :=
  r.getReportFormats.mapM (fun f => do
    let d ← r.getReportDesc f
    pure (listLine (maxWidth r.getReportFormats) f d.description))

/-! ## The command line, `__main__.py` -/

/-- The state of the loop `__main__.py:75-81`: `argv`, `plusargs`. -/
structure Split where
  argv : List String
  plusargs : List String
  deriving DecidableEq, Repr

/-- One round of the loop `__main__.py:77-81`; `arg[0]` raises `IndexError` for an empty argument. -/
def splitStep (s : Split) (arg : String) : Except Err Split :=
  match arg.toList with
  | [] => .error .indexError
  | c :: _ => if c = '+' then .ok { s with plusargs := s.plusargs ++ [arg] } else .ok { s with argv := s.argv ++ [arg] }

/-- The loop `__main__.py:75-81` over `sys.argv[1:]`. -/
def splitArgs (args : List String) : Except Err Split := args.foldlM splitStep ⟨[], []⟩

/-- How the process ends: normally (status 0), by an uncaught exception (status 1) or by `argparse` (status 2). -/
inductive Exit where
  | ok | exception (e : Err) | usage
  deriving DecidableEq, Repr

/-- The exit status of the interpreter. -/
def Exit.status : Exit → Nat
  | .ok => 0
  | .exception _ => 1
  | .usage => 2

/-- `main`, `__main__.py:72-90`.  `parse` is `argparse`: a command (with its arguments) or a usage error.  An exception
of the command is printed (traceback to standard error, the message to standard output) and swallowed. -/
def main (parse : List String → Option (List String → Cmd Unit)) (message : Err → Bytes) (args : List String) (w : World) :
    Exit × World :=
  match splitArgs args with
  | .error e => (.exception e, w)
  | .ok s =>
    match parse s.argv with
    | none => (.usage, w)
    | some func =>
      match func s.plusargs w with
      | (.ok _, w') => (.ok, w')
      | (.error e, w') => (.ok, { w' with stdout := w'.stdout ++ message e })

/-! ## Opening files, `xml_factory.py:31-50` -/

/-- How a file is opened. -/
inductive Opener where
  | gzip | lz4 | plain
  deriving DecidableEq, Repr

/-- Which of the optional modules can be imported. -/
structure Modules where
  gzip : Bool
  lz4 : Bool

/-- `XmlFactory._open_file`, `xml_factory.py:31-50`: two reads of up to two bytes each; `none` (Python `None`) if the
module needed is missing. -/
def openFile (m : Modules) (content : Bytes) : Option Opener :=
  let magic0 := content.take 2
  let magic1 := (content.drop 2).take 2
  if magic0 = [0x1f, 0x8b] then
    if m.gzip then some .gzip else none
  else if magic0 = [0x04, 0x22] ∧ magic1 = [0x4d, 0x18] then
    if m.lz4 then some .lz4 else none
  else some .plain

/-! ## C structures, `lib/lib_cover_data.py`, `lib/lib_test_data.py` -/

/-- `CoverFlagsT`, `cover_flags_t.py:9-11`. -/
def IS_32BIT : Nat := 1
def IS_64BIT : Nat := 2
def IS_VECTOR : Nat := 4

/-- `CoverData` (`cover_data.py:8-20`), all fields; `data` is the count (an integer). -/
structure CovData where
  type : Nat
  flags : Nat
  data : Int
  goal : Int
  weight : Int
  limit : Int
  bitlen : Int
  deriving DecidableEq, Repr

/-- The union `LibCoverDataValue`, `lib_cover_data.py:12-17`: eight bytes, as the number they form (little endian). -/
abbrev Raw64 := Nat

/-- `LibCoverData`, `lib_cover_data.py:19-29`. -/
structure CCovData where
  type : Nat
  flags : Int
  data : Raw64
  goal : Int
  weight : Int
  limit : Int
  bitlen : Int
  deriving DecidableEq, Repr

/-- Storing an integer into an unsigned field of `n` bits: `ctypes` keeps the low bits without checking. -/
def toUnsigned (n : Nat) (x : Int) : Nat := (x % (2 ^ n : Nat)).toNat

/-- Storing an integer into a `c_int` (32 bits) field. -/
def toCInt (x : Int) : Int :=
  let m := x % (2 ^ 32 : Nat)
  if m < (2 ^ 31 : Nat) then m else m - (2 ^ 32 : Nat)

/-- `data.int32 = x` on the freshly created, zeroed union: the low four bytes. -/
def setInt32 (x : Int) : Raw64 := toUnsigned 32 x
/-- `data.int64 = x` -/
def setInt64 (x : Int) : Raw64 := toUnsigned 64 x
/-- `data.bytevector = x` for an integer: `c_wchar_p` takes it as an address. -/
def setPointer (x : Int) : Raw64 := toUnsigned 64 x

/-- Reading the members of the union back. -/
def getInt32 (r : Raw64) : Nat := r % 2 ^ 32
def getInt64 (r : Raw64) : Nat := r

/-- `LibCoverData.ctor`, `lib_cover_data.py:31-52`. -/
def libCoverData (c : CovData) : Except Err CCovData := do
  let data ←
    if maskHit c.flags IS_32BIT then Except.ok (setInt32 c.data)
    else if maskHit c.flags IS_64BIT then Except.ok (setInt64 c.data)
    else if maskHit c.flags IS_VECTOR then Except.ok (setPointer c.data)
    else Except.error .userError
  pure ⟨toUnsigned 64 c.type, toCInt c.flags, data, toCInt c.goal, toCInt c.weight, toCInt c.limit, toCInt c.bitlen⟩

/-- Python values as they occur in `TestData`: integers, floating point numbers (finite ones are rationals), texts
and `None`. -/
inductive Val where
  | int (x : Int)
  | float (x : Rat)
  | str (s : String)
  | none
  deriving DecidableEq

/-- `TestData`, `test_data.py:25-54`; the constructor's parameter order (`:27-41`) is that of `TestData.mk'`. -/
structure TestData where
  teststatus : Val
  simtime : Val
  timeunit : Val
  runcwd : Val
  cputime : Val
  seed : Val
  cmd : Val
  args : Val
  compulsory : Val
  date : Val
  user : Val
  cost : Val
  toolcategory : Val
  deriving DecidableEq

/-- `TestData.__init__`, `test_data.py:27-54`, with its parameters in order. -/
def TestData.mk' (teststatus toolcategory date simtime timeunit runcwd cputime seed cmd args compulsory user cost : Val) : TestData :=
  { teststatus, simtime, timeunit, runcwd, cputime, seed, cmd, args, compulsory, date, user, cost, toolcategory }

/-- `LibTestData`, `lib_test_data.py:11-26`. Texts are pointers to the Python string's characters. -/
structure CTestData where
  teststatus : Nat
  simtime : Rat
  timeunit : Option String
  runcwd : Option String
  cputime : Rat
  seed : Option String
  cmd : Option String
  args : Option String
  compulsory : Int
  date : Option String
  username : Option String
  cost : Rat
  toolcategory : Option String
  deriving DecidableEq

/-- Storing into a `c_uint` field. -/
def cUint : Val → Except Err Nat
  | .int x => .ok (toUnsigned 32 x)
  | _ => .error .typeError
/-- Storing into a `c_int` field. -/
def cInt : Val → Except Err Int
  | .int x => .ok (toCInt x)
  | _ => .error .typeError
/-- Storing into a `c_double` field.  Integers are converted (to the nearest double, taken as exact here). -/
def cDouble : Val → Except Err Rat
  | .int x => .ok x
  | .float x => .ok x
  | _ => .error .typeError
/-- Storing into a `c_wchar_p` field.  Integers are taken as addresses by `ctypes`; reading the field then follows the
address, which is not modelled: `typeError`. -/
def cText : Val → Except Err (Option String)
  | .str s => .ok (some s)
  | .none => .ok none
  | _ => .error .typeError

/-- `LibTestData.ctor`, `lib_test_data.py:28-63`. -/
def libTestData (t : TestData) : Except Err CTestData := do
  let teststatus ← cUint t.teststatus
  let simtime ← cDouble t.simtime
  let timeunit ← cText t.timeunit
  let runcwd ← cText t.runcwd
  let cputime ← cDouble t.cputime
  let seed ← cText t.seed
  let cmd ← cText t.cmd
  let args ← cText t.args
  let compulsory ← cInt t.compulsory
  let date ← cText t.date
  let username ← cText t.user
  let cost ← cDouble t.cost
  let toolcategory ← cText t.toolcategory
  pure { teststatus, simtime, timeunit, runcwd, cputime, seed, cmd, args, compulsory, date, username, cost, toolcategory }

/-- Reading a `c_wchar_p` field: the characters up to the first NUL. -/
def readText : Option String → Val
  | some s => .str (String.ofList (s.toList.takeWhile (· ≠ '\x00')))
  | none => .none

/-- `to_testdata`, `lib_test_data.py:65-81`: all fields passed by position, in the order of the C structure. -/
def toTestData (c : CTestData) : TestData :=
  TestData.mk' (.int c.teststatus) (.float c.simtime) (readText c.timeunit) (readText c.runcwd) (.float c.cputime) (readText c.seed)
    (readText c.cmd) (readText c.args) (.int c.compulsory) (readText c.date) (readText c.username) (.float c.cost)
    (readText c.toolcategory)

end Tools
end Verif
