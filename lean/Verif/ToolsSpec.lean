import Verif.Tools
import Verif.Assoc
import Verif.ExceptLemmas
import Mathlib.Data.String.Basic
/-!
# Specifications and lemmas for the tools
-/

namespace Verif
namespace Tools
open Cmd

/-! ## Specifications -/

namespace Spec

/-- Registrations, in any order. -/
inductive Reg (D : Type) where
  | db (d : DbDesc D)
  | rpt (d : RptDesc D)

/-- The last element of a list that satisfies `p`. -/
def IsLast {α : Type} (p : α → Prop) (l : List α) (a : α) : Prop := ∃ pre post, l = pre ++ a :: post ∧ p a ∧ ∀ b ∈ post, ¬ p b

/-- The argument starts with a plus sign. -/
def Plus (a : String) : Prop := ∃ rest, a.toList = '+' :: rest

/-- The databases are what reading the files gives. -/
def Reads {D : Type} (f : DbIf D) (files : String → Option Bytes) (paths : List String) (dbs : List D) : Prop :=
  List.Forall₂ (fun p d => f.read (files p) = .ok d) paths dbs

/-- Nothing but opening files for reading happened between the two worlds. -/
def OnlyRead (w w' : World) : Prop := ∃ ps : List String, w' = { w with log := w.log ++ ps.map Event.read }

/-- The field descriptions of `TestData` (`test_data.py:27-41`) with the values the C structure can hold: status and
`compulsory` fit their fields, texts have no NUL character or are missing (`None`). -/
def Text (v : Val) : Prop := v = .none ∨ ∃ s : String, v = .str s ∧ '\x00' ∉ s.toList

structure Typed (t : TestData) : Prop where
  teststatus : ∃ n : Nat, t.teststatus = .int n ∧ n < 2 ^ 32
  simtime : ∃ x, t.simtime = .float x
  timeunit : Text t.timeunit
  runcwd : Text t.runcwd
  cputime : ∃ x, t.cputime = .float x
  seed : Text t.seed
  cmd : Text t.cmd
  args : Text t.args
  compulsory : ∃ n : Int, t.compulsory = .int n ∧ -2 ^ 31 ≤ n ∧ n < 2 ^ 31
  date : Text t.date
  user : Text t.user
  cost : ∃ x, t.cost = .float x
  toolcategory : Text t.toolcategory

end Spec

/-- Running registrations on the empty registry. -/
def runReg {D : Type} (ops : List (Spec.Reg D)) : Rgy D :=
  ops.foldl (fun r o => match o with | .db d => r.addDatabaseFormat d | .rpt d => r.addReportFormat d) Rgy.init

/-! ## The command monad -/

namespace Cmd
variable {α β γ : Type}

theorem bind_def (x : Cmd α) (f : α → Cmd β) (w : World) :
    (x >>= f) w = match x w with | (.ok a, w') => f a w' | (.error e, w') => (.error e, w') := rfl

@[simp] theorem pure_apply (a : α) (w : World) : (Pure.pure a : Cmd α) w = (.ok a, w) := rfl
@[simp] theorem fail_apply (e : Err) (w : World) : (fail e : Cmd α) w = (.error e, w) := rfl
@[simp] theorem lift_apply (x : Except Err α) (w : World) : (lift x) w = (x, w) := rfl

theorem bind_ok {x : Cmd α} {f : α → Cmd β} {w w' : World} {a : α} (h : x w = (.ok a, w')) : (x >>= f) w = f a w' := by
  rw [bind_def, h]

theorem bind_error {x : Cmd α} {f : α → Cmd β} {w w' : World} {e : Err} (h : x w = (.error e, w')) :
    (x >>= f) w = (.error e, w') := by
  rw [bind_def, h]

theorem lift_ok (a : α) (f : α → Cmd β) (w : World) : (lift (.ok a) >>= f) w = f a w := rfl
theorem lift_error (e : Err) (f : α → Cmd β) (w : World) : ((lift (.error e) : Cmd α) >>= f) w = (.error e, w) := rfl

instance : LawfulMonad Cmd := LawfulMonad.mk'
  (id_map := fun x => by
    funext w
    show Cmd.bind x _ w = x w
    unfold Cmd.bind
    rcases h : x w with ⟨_ | _, _⟩ <;> simp [Cmd.pure])
  (pure_bind := fun _ _ => rfl)
  (bind_assoc := fun x f g => by
    funext w
    show Cmd.bind (Cmd.bind x f) g w = Cmd.bind x (fun a => Cmd.bind (f a) g) w
    simp only [Cmd.bind]
    rcases x w with ⟨_ | _, _⟩ <;> rfl)

end Cmd

section
variable {D : Type}

theorem wrap_read (f : DbIf D) (p : String) (w : World) :
    wrap (readFile f p) w = match f.read (w.files p) with
      | .ok d => (.ok d, { w with log := w.log ++ [.read p] })
      | .error _ => (.error .userError, { w with log := w.log ++ [.read p] }) := by
  unfold wrap readFile
  cases f.read (w.files p) <;> rfl

/-- Reading all inputs: either all are read, or the first failure ends it. -/
theorem mapM_read (f : DbIf D) (paths : List String) (w : World) :
    (∃ dbs, Spec.Reads f w.files paths dbs ∧
      paths.mapM (fun p => wrap (readFile f p)) w = (.ok dbs, { w with log := w.log ++ paths.map Event.read })) ∨
    ((∃ p ∈ paths, ∃ e, f.read (w.files p) = .error e) ∧ ∃ w', Spec.OnlyRead w w' ∧
      paths.mapM (fun p => wrap (readFile f p)) w = (.error .userError, w')) := by
  induction paths generalizing w with
  | nil => exact .inl ⟨[], .nil, by simp⟩
  | cons p t ih =>
    rw [List.mapM_cons]
    have hw := wrap_read f p w
    cases hr : f.read (w.files p) with
    | error e =>
      rw [hr] at hw
      refine .inr ⟨⟨p, List.mem_cons_self, e, hr⟩, _, ⟨[p], rfl⟩, ?_⟩
      rw [Cmd.bind_error hw]; rfl
    | ok d =>
      rw [hr] at hw
      rw [Cmd.bind_ok hw]
      rcases ih { w with log := w.log ++ [.read p] } with ⟨dbs, h1, h2⟩ | ⟨⟨q, hq, e, he⟩, w', ⟨ps, hps⟩, h2⟩
      · refine .inl ⟨d :: dbs, .cons hr h1, ?_⟩
        rw [Cmd.bind_ok h2]
        simp [List.append_assoc]
      · refine .inr ⟨⟨q, List.mem_cons_of_mem _ hq, e, he⟩, w', ⟨p :: ps, ?_⟩, ?_⟩
        · rw [hps]; simp [List.append_assoc]
        · rw [Cmd.bind_error h2]

theorem reads_unique {f : DbIf D} {files : String → Option Bytes} {ps : List String} {a b : List D}
    (ha : Spec.Reads f files ps a) (hb : Spec.Reads f files ps b) : a = b := by
  induction ha generalizing b with
  | nil => cases hb; rfl
  | cons h _ ih =>
    cases hb with
    | cons h' t' => rw [h] at h'; cases h'; rw [ih t']

theorem reads_no_error {f : DbIf D} {files : String → Option Bytes} {ps : List String} {a : List D}
    (ha : Spec.Reads f files ps a) {p : String} (hp : p ∈ ps) {e : Err} (he : f.read (files p) = .error e) : False := by
  induction ha with
  | nil => cases hp
  | cons h _ ih =>
    rcases List.mem_cons.1 hp with rfl | hp
    · rw [h] at he; cases he
    · exact ih hp

end

end Tools
end Verif
