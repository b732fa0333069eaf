import Verif.LibThms
/-!
# Saving and closing native databases (C126)

No new code: `LibUCIS.write`, `close`, `createFileHandle` (`src/ucis/lib/lib_ucis.py:67-73`, `:101-113`) are `writeDb`, `closeDb` and
`createFileHandle` of `Verif/Lib.lean`.
-/

namespace Verif
namespace Lib
open Tools Lib.Spec

/-- **C126** (partial) Saving a whole database makes exactly one call to the library: for this database, with the file name, no scope, the recursion asked for and the
set of bin kinds (all of them for the default `-1`).  Closing makes exactly one call, for this database.  Registering a source file hands over
its name and directory and gives the handle of the library.  Opening hands over the file name, or none for a new database.
Full statement: also for a part of a database, and a failure reported by the library raises; see `C126_refuted`. -/
theorem C126_passed_on_partial (s : Ref) (f : String) (recurse : Bool) (kinds : Nat) (hk : kinds < 2 ^ 32) (dir : Option String) (o : Native) (t : List CCall) :
    writeDb s (some f) none recurse kinds o t = (.ok (), t ++ [.write s.db f none (if recurse then 1 else 0) kinds]) ∧
    writeDb s (some f) none recurse (-1) o t = (.ok (), t ++ [.write s.db f none (if recurse then 1 else 0) 0xffffffff]) ∧
    closeDb s o t = (.ok (), t ++ [.close s.db]) ∧
    createFileHandle s (some f) dir o t = (.ok (o t (.createFileHandle s.db f dir)).ptr, t ++ [.createFileHandle s.db f dir]) ∧
    ∀ file, ∃ r l, openDb file o t = (r, t ++ .open file :: l) ∧ ∀ c ∈ l, ∃ h, c = .setInt h h (-1) 4 100 := by
  refine ⟨?_, ?_, rfl, rfl, ?_⟩
  · simp only [writeDb, encode, bind_def, pure_def, call_def, toUnsigned32_id (x := (kinds : Int)) ⟨by omega, by exact_mod_cast hk⟩, flag, Int.toNat_natCast]
  · simp only [writeDb, encode, bind_def, pure_def, call_def, flag]
    rfl
  · intro file
    cases h : (o t (.open file)).ptr with
    | none => exact ⟨.error .userError, [], by simp only [openDb, bind_def, call_def, h]; rfl, by simp⟩
    | some db => exact ⟨_, _, ((C90_read_only_refuted s o t).2.1 file db h).trans (by rfl), by intro c hc; exact ⟨db, by simpa using hc⟩⟩

/-- **C126** fails, for every library: whatever result code the library gives, saving and closing succeed; a part of a database cannot be saved (`ctypes`
refuses the scope object and the library is not called); and a database that was closed can still be saved, with the handle the library has freed. -/
theorem C126_refuted (s part : Ref) (f : String) (recurse : Bool) (kinds : Int) (o : Native) (t : List CCall) :
    (writeDb s (some f) none recurse kinds o t).1 = .ok () ∧ (closeDb s o t).1 = .ok () ∧
    writeDb s (some f) (some part) recurse kinds o t = (.error .typeError, t) ∧
    ∃ k, (do closeDb s; writeDb s (some f) none recurse kinds) o t = (.ok (), t ++ [.close s.db, .write s.db f none (if recurse then 1 else 0) k]) := by
  refine ⟨rfl, rfl, rfl, toUnsigned 32 kinds, ?_⟩
  simp only [closeDb, writeDb, encode, bind_def, pure_def, call_def, flag, List.append_assoc, List.cons_append, List.nil_append]

/-- A library whose every call fails (result code 1). -/
example : (writeDb ⟨1, none⟩ (some "a.ucis") none true (-1) (fun _ _ => { int := 1 }) []).1 = .ok () ∧
    (writeDb ⟨1, none⟩ (some "a.ucis") none true (-1) (fun _ _ => { int := 1 }) []).2 = [.write 1 "a.ucis" none 1 0xffffffff] := ⟨rfl, rfl⟩

end Lib
end Verif
