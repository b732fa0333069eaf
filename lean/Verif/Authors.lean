import Verif.XsdThms2
import Verif.PipelineThms
/-!
# Who wrote a database, and when (C140)

The attributes `writtenBy` and `writtenTime` of `MemUCIS` (`mem_ucis.py:61-62`, `:73-83`).  They have no influence on anything else, so that they are added here
to databases as they are elsewhere in the model.
-/

namespace Verif
namespace Authors
open Xml (Elem)

/-- The process that runs: user and environment (`getpass.getuser()`), and the time as `int(datetime.timestamp(datetime.now()))`.  The clock stands still during
a call. -/
structure Proc where
  env : Xml.Env
  clock : Int

/-- `MemUCIS` with its two attributes. -/
structure Authored where
  writtenBy : String
  writtenTime : Int
  db : Database

/-- `MemUCIS.__init__`, `mem_ucis.py:49-68`. -/
def create (p : Proc) : Authored := ⟨p.env.user, p.clock, ⟨emptyDb, [], []⟩⟩

/-- `XmlFactory.write`: `XmlWriter.write`, `xml_writer.py:53-88`; the attributes are not looked at (`:66-67`; `:69-70` are comments). -/
def write (p : Proc) (a : Authored) : Except Err Elem := Xml.write p.env a.db

/-- `XmlFactory.read`: `XmlReader.read`, `xml_reader.py:57-80`, makes a new database (`:60`) and does not set the attributes (`:68-69` are comments). -/
def read (p : Proc) (doc : Elem) : Except Err Authored := do
  let db ← Xml.factoryRead p.env.flt doc
  pure { create p with db }

/-- What a program does with databases; `i` is the number of the database in the order of creation.  Changes of the content are arbitrary. -/
inductive Op where
  | create (p : Proc)
  | setWrittenBy (i : Nat) (by_ : String)
  | setWrittenTime (i : Nat) (t : Int)
  | edit (i : Nat) (f : Database → Database)
  | read (p : Proc) (doc : Elem)

/-- The databases of the program, after one call more: `mem_ucis.py:76-77`, `:82-83` for the setters.  A reading that raises makes no database. -/
def step (l : List Authored) : Op → List Authored
  | .create p => l ++ [create p]
  | .setWrittenBy i b => l.modify i (fun a => { a with writtenBy := b })
  | .setWrittenTime i t => l.modify i (fun a => { a with writtenTime := t })
  | .edit i f => l.modify i (fun a => { a with db := f a.db })
  | .read p doc => match read p doc with
    | .ok a => l ++ [a]
    | .error _ => l

end Authors

namespace Spec
open Authors

/-- The author that the calls give to the database: the one set last. -/
def lastBy (i : Nat) (start : String) (ops : List Op) : String :=
  (ops.reverse.findSome? (fun o => match o with
    | .setWrittenBy j b => if j = i then some b else none
    | _ => none)).getD start

/-- The time that the calls give to the database. -/
def lastTime (i : Nat) (start : Int) (ops : List Op) : Int :=
  (ops.reverse.findSome? (fun o => match o with
    | .setWrittenTime j b => if j = i then some b else none
    | _ => none)).getD start

end Spec

namespace Authors
open Xml (Elem)
open Spec (lastBy lastTime)

theorem lastBy_cons (i : Nat) (s : String) (o : Op) (t : List Op) :
    lastBy i s (o :: t) = lastBy i (match o with | .setWrittenBy j b => if j = i then b else s | _ => s) t := by
  unfold lastBy
  rw [List.reverse_cons, List.findSome?_append]
  cases h : List.findSome? _ t.reverse with
  | some b => simp
  | none =>
    cases o <;> simp
    split <;> rfl

theorem lastTime_cons (i : Nat) (s : Int) (o : Op) (t : List Op) :
    lastTime i s (o :: t) = lastTime i (match o with | .setWrittenTime j b => if j = i then b else s | _ => s) t := by
  unfold lastTime
  rw [List.reverse_cons, List.findSome?_append]
  cases h : List.findSome? _ t.reverse with
  | some b => simp
  | none =>
    cases o <;> simp
    split <;> rfl

/-- One call. -/
theorem step_get {l : List Authored} {i : Nat} {a : Authored} (h : l[i]? = some a) (o : Op) : ∃ b, (step l o)[i]? = some b ∧
    b.writtenBy = (match o with | .setWrittenBy j b => if j = i then b else a.writtenBy | _ => a.writtenBy) ∧
    b.writtenTime = (match o with | .setWrittenTime j b => if j = i then b else a.writtenTime | _ => a.writtenTime) := by
  have app : ∀ m : List Authored, (l ++ m)[i]? = some a := fun m => by
    rw [List.getElem?_append_left (List.getElem?_eq_some_iff.1 h).1]; exact h
  cases o with
  | create p => exact ⟨a, app _, rfl, rfl⟩
  | read p doc =>
    simp only [step]
    cases read p doc with
    | ok b => exact ⟨a, app _, rfl, rfl⟩
    | error e => exact ⟨a, h, rfl, rfl⟩
  | setWrittenBy j b => by_cases hj : j = i <;> simp [step, h, hj]
  | setWrittenTime j b => by_cases hj : j = i <;> simp [step, h, hj]
  | edit j f => by_cases hj : j = i <;> simp [step, h, hj]

/-- **C140** in memory: author and time of a database are those set last, and before that those of the process that made it, whatever happens to other
databases and to the content. -/
theorem C140_memory {l : List Authored} {i : Nat} {a : Authored} (h : l[i]? = some a) (ops : List Op) : ∃ b, (ops.foldl step l)[i]? = some b ∧
    b.writtenBy = lastBy i a.writtenBy ops ∧ b.writtenTime = lastTime i a.writtenTime ops := by
  induction ops generalizing l a with
  | nil => exact ⟨a, h, rfl, rfl⟩
  | cons o t ih =>
    obtain ⟨b, hb, h1, h2⟩ := step_get h o
    obtain ⟨c, hc, h3, h4⟩ := ih hb
    exact ⟨c, hc, by rw [h3, h1, lastBy_cons], by rw [h4, h2, lastTime_cons]⟩

/-- A database that was read has user and time of the process that reads. -/
theorem read_ok {p : Proc} {doc : Elem} {b : Authored} (h : read p doc = .ok b) : b.writtenBy = p.env.user ∧ b.writtenTime = p.clock := by
  unfold read at h
  obtain ⟨d, _, h⟩ := Ex.bind_ok.1 h
  rw [Ex.pure_ok] at h
  subst h
  exact ⟨rfl, rfl⟩

/-- **C140** for files, what is true: the root of the file names the user who wrote it and the date of writing, whatever was set; and author and time are found
in the database that is read from the file exactly if they are user and time of the process that reads.  Full statement: both are in the file, and in the
database read from it; refuted in `C140_file_refuted`. -/
theorem C140_file_partial {p p' : Proc} {a b : Authored} {doc : Elem} (hw : write p a = .ok doc) (hr : read p' (Xml.reparse doc) = .ok b) :
    doc.get "writtenBy" = some p.env.user ∧ doc.get "writtenTime" = some p.env.today ∧
    (b.writtenBy = a.writtenBy ↔ a.writtenBy = p'.env.user) ∧ (b.writtenTime = a.writtenTime ↔ a.writtenTime = p'.clock) := by
  obtain ⟨h1, h2⟩ := read_ok hr
  rw [h1, h2]
  refine ⟨?_, ?_, eq_comm, eq_comm⟩
  all_goals
    unfold write Xml.write at hw
    obtain ⟨x, hx, hw⟩ := Ex.bind_ok.1 hw
    obtain ⟨y, hy, hw⟩ := Ex.bind_ok.1 hw
    obtain ⟨_, _, hw⟩ := Ex.bind_ok.1 hw
    obtain ⟨_, _, hw⟩ := Ex.bind_ok.1 hw
    obtain ⟨_, _, hw⟩ := Ex.bind_ok.1 hw
    rw [Ex.pure_ok] at hw
    subst hw
    rw [(Xml.setA_ok.1 hx).2, (Xml.setA_ok.1 hy).2]
    rfl

namespace Ex
/-- A process, and the same user an hour later. -/
def p1 : Proc := ⟨Xml.exEnv2, 1000⟩
def p2 : Proc := ⟨Xml.exEnv2, 4600⟩
/-- A program with two databases. -/
def prog : List Op := [.setWrittenBy 0 "alice", .create p2, .setWrittenBy 1 "bob", .setWrittenTime 0 7, .edit 0 (fun _ => Tools.exPlainDb), .setWrittenTime 1 8]
end Ex

/-- The hypothesis of `C140_memory` is met, with calls for two databases. -/
example : ([create Ex.p1])[0]? = some (create Ex.p1) ∧ lastBy 0 "user" Ex.prog = "alice" ∧ lastTime 0 1000 Ex.prog = 7 ∧
    lastBy 1 "user" Ex.prog = "bob" ∧ (Ex.prog.foldl step [create Ex.p1]).map (fun a => (a.writtenBy, a.writtenTime)) = [("alice", 7), ("bob", 8)] := by
  refine ⟨rfl, by decide, by decide, by decide, ?_⟩
  rfl

theorem exStored (s : String) (t : Int) : ∃ doc b, write Ex.p1 ⟨s, t, Tools.exPlainDb⟩ = .ok doc ∧ read Ex.p2 (Xml.reparse doc) = .ok b := by
  obtain ⟨doc, db', hw, ht⟩ := Tools.exPlainDb_written (env := Xml.exEnv2) Xml.exEnv2_good
  refine ⟨doc, { create Ex.p2 with db := db' }, hw, ?_⟩
  have : Xml.factoryRead Ex.p2.env.flt (Xml.reparse doc) = .ok db' := by
    unfold Xml.throughFile at ht; rw [hw] at ht; exact ht
  unfold read
  rw [this]
  rfl

/-- The hypotheses of `C140_file_partial` are met, for any author and time. -/
example : ∃ doc b, write Ex.p1 ⟨"alice", 7, Tools.exPlainDb⟩ = .ok doc ∧ read Ex.p2 (Xml.reparse doc) = .ok b := exStored _ _

/-- **C140** is violated: author and time that were set are neither in the file nor in the database read from it; and for the same user and a database whose
attributes were never set, the time is lost. -/
theorem C140_file_refuted :
    (∃ p p' a doc b, write p a = .ok doc ∧ read p' (Xml.reparse doc) = .ok b ∧ doc.get "writtenBy" ≠ some a.writtenBy ∧
      b.writtenBy ≠ a.writtenBy ∧ b.writtenTime ≠ a.writtenTime) ∧
    ∃ p p' a doc b, p'.env = p.env ∧ a = { create p with db := a.db } ∧ write p a = .ok doc ∧ read p' (Xml.reparse doc) = .ok b ∧ b.writtenTime ≠ a.writtenTime := by
  constructor
  · obtain ⟨doc, b, hw, hr⟩ := exStored "alice" 7
    obtain ⟨h1, _, h3, h4⟩ := C140_file_partial hw hr
    refine ⟨_, _, _, _, _, hw, hr, ?_, ?_, ?_⟩
    · rw [h1]; decide
    · rw [Ne, h3]; decide
    · rw [Ne, h4]; decide
  · obtain ⟨doc, b, hw, hr⟩ := exStored Ex.p1.env.user Ex.p1.clock
    obtain ⟨_, _, _, h4⟩ := C140_file_partial hw hr
    exact ⟨Ex.p1, Ex.p2, _, _, _, rfl, rfl, hw, hr, by rw [Ne, h4]; decide⟩

end Authors
end Verif
