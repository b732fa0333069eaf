import Verif.Locations
/-!
# Weights, goals and thresholds and XML files (C143)

No new code: `write_options` (`xml_writer.py:291-292`) writes an empty element, and the reader gives 1 as the weight of every scope and as the threshold of every bin
(`xml_reader.py:181-185`, `:202-206`, `:216-220`, `:280-284`, `:326-331`, `:337-343`, `:359-364`, `:376-381`, `:396-401`).
-/

namespace Verif
namespace Spec

/-- A bin without what is said about its threshold, goal and weight. -/
def unweighedItem (i : Item) : Item := { i with atLeast := none, goal := 0, weight := 0 }

mutual
/-- A tree without weights, goals, thresholds, design units, and lines and tokens of locations. -/
def unweighed : Scope → Scope
  | ⟨ty, n, src, _, _, cps, ch, it⟩ => ⟨ty, n, ⟨src.file, 0, 0⟩, 0, none, cps, unweighedL ch, it.map unweighedItem⟩
termination_by structural s => s
def unweighedL : List Scope → List Scope
  | [] => []
  | s :: t => unweighed s :: unweighedL t
termination_by structural l => l
end

/-- Weight 1, and bins with threshold, goal and weight 1. -/
def AllOne (s : Scope) : Prop := s.weight = 1 ∧ ∀ b ∈ s.items, b.atLeast = some 1 ∧ b.goal = 1 ∧ b.weight = 1

end Spec

namespace Xml
open Spec

theorem unweighedL_eq (l : List Scope) : unweighedL l = l.map unweighed := by
  induction l with
  | nil => rfl
  | cons a t ih => rw [unweighedL, ih]; rfl

theorem unweighed_eq (s : Scope) :
    unweighed s = ⟨s.stype, s.name, ⟨s.src.file, 0, 0⟩, 0, none, s.cps, s.children.map unweighed, s.items.map unweighedItem⟩ := by
  cases s
  rw [unweighed, unweighedL_eq]

theorem mapM_map_same {α β : Type} {f : α → α} {g : α → Except Err β} (h : ∀ a, g (f a) = g a) (l : List α) : (l.map f).mapM g = l.mapM g := by
  induction l with
  | nil => rfl
  | cons a t ih => rw [List.map_cons, List.mapM_cons, List.mapM_cons, h, ih]

theorem scopes_unweighed (s : Scope) (m : Nat) : (unweighed s).scopes m = (s.scopes m).map unweighed := by
  rw [unweighed_eq]
  unfold Scope.scopes
  rw [List.filter_map]
  congr 2
  funext c
  simp [unweighed_eq c]

theorem coverItems_unweighed (s : Scope) (m : Nat) : (unweighed s).coverItems m = (s.coverItems m).map unweighedItem := by
  rw [unweighed_eq]
  unfold Scope.coverItems
  rw [List.filter_map]
  rfl

theorem writeCoverpoint_unweighed (s : Scope) : writeCoverpoint (unweighed s) = writeCoverpoint s := by
  unfold writeCoverpoint
  rw [coverItems_unweighed, mapM_map_same (f := unweighedItem) (g := writeBin) (fun _ => rfl), show (unweighed s).name = s.name by rw [unweighed_eq]]

theorem writeCross_unweighed (s : Scope) : writeCross (unweighed s) = writeCross s := by
  unfold writeCross
  rw [coverItems_unweighed, mapM_map_same (f := unweighedItem) (g := writeCrossBin) (fun _ => rfl), show (unweighed s).name = s.name by rw [unweighed_eq],
    show (unweighed s).cps = s.cps by rw [unweighed_eq]]

theorem writeCoverinstance_unweighed (n : String) (s : Scope) : writeCoverinstance n (unweighed s) = writeCoverinstance n s := by
  unfold writeCoverinstance
  rw [scopes_unweighed, scopes_unweighed, mapM_map_same writeCoverpoint_unweighed, mapM_map_same writeCross_unweighed,
    show (unweighed s).name = s.name by rw [unweighed_eq]]

theorem writeCovergroup_unweighed (s : Scope) : writeCovergroup (unweighed s) = writeCovergroup s := by
  have ht : toWrite (unweighed s) = (toWrite s).map unweighed := by
    unfold toWrite
    rw [scopes_unweighed]
    cases s.scopes ST.COVERINSTANCE <;> rfl
  unfold writeCovergroup
  rw [ht, show (unweighed s).name = s.name by rw [unweighed_eq], mapM_map_same (writeCoverinstance_unweighed _)]

theorem writeInstance_unweighed (s : Scope) : writeInstance (unweighed s) = writeInstance s := by
  unfold writeInstance
  rw [scopes_unweighed, mapM_map_same writeCovergroup_unweighed, show (unweighed s).name = s.name by rw [unweighed_eq]]

mutual
theorem findFiles_unweighed : ∀ (s : Scope) (m : Dict Nat), findFiles (unweighed s) m = findFiles s m
  | ⟨ty, n, src, w, du, cps, ch, it⟩, m => by
    rw [unweighed, findFiles, findFiles, findFilesL_unweighed]
termination_by structural s => s
theorem findFilesL_unweighed : ∀ (l : List Scope) (m : Dict Nat), findFilesL (unweighedL l) m = findFilesL l m
  | [], m => by rw [unweighedL]
  | s :: t, m => by
    rw [unweighedL, findFilesL, findFilesL, findFilesL_unweighed, findFiles_unweighed, show (unweighed s).stype = s.stype by rw [unweighed_eq]]
termination_by structural l => l
end

theorem write_unweighed (env : Env) (db : Database) : write env { db with root := unweighed db.root } = write env db := by
  have hf : fileTable (unweighed db.root) = fileTable db.root := by
    unfold fileTable
    rw [unweighed_eq, ← unweighedL_eq]
    exact findFilesL_unweighed _ _
  unfold write
  rw [scopes_unweighed, mapM_map_same writeInstance_unweighed, hf]

/-- **C143** for the file (partial): databases that differ only in weights, goals, thresholds, design units, and lines and tokens of locations give the same file, or
the same error.  Full statement: weights and thresholds can be told from the file. -/
theorem C143_file_partial (env : Env) {a b : Database} (h : unweighed a.root = unweighed b.root) (hh : a.hist = b.hist) : write env a = write env b := by
  rw [← write_unweighed env a, ← write_unweighed env b, h]
  unfold write
  rw [hh]

/-- **C143** for reading (partial): all weights in a database that was read from an XML file are 1, and so are thresholds, goals and weights of the bins.  Full
statement: they are those of the database that was written; see `C143_refuted`. -/
theorem C143_read_partial {flt : FloatText} {doc : Elem} {db : Database} (h : factoryRead flt doc = .ok db) : ∀ t ∈ subtreesL db.root.children, AllOne t :=
  read_thru ⟨fun _ _ h2 h3 => ⟨h2, h3⟩, fun _ _ h => h⟩ (factoryRead_ok.1 h).2

mutual
/-- The tree with another weight for everything and another threshold for every bin. -/
def exHeavier : Scope → Scope
  | ⟨ty, n, src, _, du, cps, ch, it⟩ => ⟨ty, n, src, 7, du, cps, exHeavierL ch, it.map (fun i => { i with atLeast := some 5 })⟩
termination_by structural s => s
def exHeavierL : List Scope → List Scope
  | [] => []
  | s :: t => exHeavier s :: exHeavierL t
termination_by structural l => l
end

def exHeavyDb : Database := { Tools.exPlainDb with root := exHeavier Tools.exPlainDb.root }

theorem exHeavyDb_written {env : Env} (he : GoodEnv env) : ∃ doc db', write env exHeavyDb = .ok doc ∧ factoryRead env.flt (reparse doc) = .ok db' := by
  obtain ⟨doc, db', hw, ht⟩ := Tools.exPlainDb_written he
  have h : Xml.write env exHeavyDb = Xml.write env Tools.exPlainDb := C143_file_partial env (by rfl) rfl
  refine ⟨doc, db', h.trans hw, ?_⟩
  unfold throughFile at ht
  rw [hw] at ht
  exact ht

/-- **C143** is violated: weights 7 and thresholds 5 of a database that can be written and read back become 1, and the file is the same as that of a database in
which they are different. -/
theorem C143_refuted : ∃ env a b doc db', GoodEnv env ∧ write env a = .ok doc ∧ write env b = .ok doc ∧ factoryRead env.flt (reparse doc) = .ok db' ∧
    (∃ t ∈ subtreesL a.root.children, t.weight = 7 ∧ ∃ i ∈ t.items, i.atLeast = some 5) ∧ (∀ t ∈ subtreesL b.root.children, t.weight ≠ 7) ∧
    (∀ t ∈ subtreesL db'.root.children, t.weight ≠ 7 ∧ ∀ i ∈ t.items, i.atLeast ≠ some 5) := by
  obtain ⟨doc, db', hw, hr⟩ := exHeavyDb_written exEnv_good
  have h : Xml.write exEnv exHeavyDb = Xml.write exEnv Tools.exPlainDb := C143_file_partial exEnv (by rfl) rfl
  refine ⟨exEnv, exHeavyDb, Tools.exPlainDb, doc, db', exEnv_good, hw, h ▸ hw, hr, by decide +kernel, by decide +kernel, fun t ht => ?_⟩
  obtain ⟨h1, h2⟩ := C143_read_partial hr t ht
  refine ⟨by rw [h1]; decide, fun i hi => ?_⟩
  rw [(h2 i hi).1]
  decide

/-- The hypotheses of `C143_file_partial` are met by two different databases, those of `C143_read_partial` by a file with bins. -/
example : unweighed exHeavyDb.root = unweighed Tools.exPlainDb.root ∧ exHeavyDb.hist = Tools.exPlainDb.hist ∧
    (subtreesL exHeavyDb.root.children).map (·.weight) ≠ (subtreesL Tools.exPlainDb.root.children).map (·.weight) ∧
    ∃ doc db', write exEnv exHeavyDb = .ok doc ∧ factoryRead exEnv.flt (reparse doc) = .ok db' :=
  ⟨by rfl, rfl, by decide +kernel, exHeavyDb_written exEnv_good⟩

end Xml
end Verif
