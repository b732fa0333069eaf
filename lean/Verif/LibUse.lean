import Verif.LibThms
import Verif.MergeClosed
/-!
# Merging and reporting with native databases (C96)
-/

namespace Verif
namespace Lib
open Tools
open Lib.Spec

/-- `Scope.getScopeName`, `scope.py:102-103`: the binding does not override it. -/
def getScopeName (_ : Ref) : L String := fail .notImplemented

/-- The location of an in-memory scope as Python object: never `None` (`mem_scope.py:57`), with a file that is `None` or a `MemFileHandle`
(`mem_file_handle.py:8-14`). -/
def memSrc (s : SrcInfo) : PySrc := ⟨if s.file = none then .none else .other, s.line, s.token⟩

/-- The loop over the instances in `DbMerger.merge` (`db_merger.py:47-77`) for in-memory sources and a native destination.  What follows the creation of
the design unit is left open (`rest`). -/
def mergeInstances (dst : Ref) (rest : Ref → Scope → List Scope → L Unit) : List (String × List (Option Scope)) → L Unit
  | [] => pure ()
  | e :: t => do
    let l := Merge.present e.2
    let s0 ← lift (listGetE l 0)
    match s0.du with
    | none => fail .attributeError
    | some du => do
      let ddu ← createScope dst (some du.name) (some (memSrc du.src)) du.weight 11 ST.DU_MODULE 0x17f
      rest ddu s0 l
      mergeInstances dst rest t

/-- `DbMerger.merge(dst, srcs)`, `db_merger.py:24-77`, for in-memory sources and a native destination. -/
def mergeInto (dst : Ref) (rest : Ref → Scope → List Scope → L Unit) (srcs : List Scope) : L Unit :=
  mergeInstances dst rest (Merge.collect ST.INSTANCE srcs)

/-- A `for` loop over a native iterator; `none` if it does not end within `n` steps. -/
def forScopes (body : Ref → L Unit) : Nat → Ref → L (Option Unit)
  | 0, _ => pure none
  | n + 1, it => do
    let x ← scopeNext it
    match x with
    | none => pure (some ())
    | some r => do
      body r
      forScopes body n it

/-- The first loop of `DbMerger.merge` (`db_merger.py:36-45`) for native sources: the name of every instance is asked for; what is done with it is left
open (`enter`). -/
def mergeFrom (n : Nat) (enter : String → Ref → L Unit) : List Ref → L (Option Unit)
  | [] => pure (some ())
  | db :: t => do
    let it ← scopes db ST.INSTANCE
    let x ← forScopes (fun r => do
      let name ← getScopeName r
      enter name r) n it
    match x with
    | none => pure none
    | some _ => mergeFrom n enter t

/-- `build_covergroups` (`coverage_report_builder.py:41-53`) on a native instance: `build_covergroup` first asks for the name (`:56-58`); what
follows is left open (`group`).  Without covergroups the division by `div = 0` raises. -/
def buildInstance (n : Nat) (group : String → Ref → L Int) (i : Ref) : L (Option Unit) := do
  let it ← scopes i ST.COVERGROUP
  let x ← forScopes (fun r => do
    let name ← getScopeName r
    let _ ← group name r
    pure ()) n it
  match x with
  | none => pure none
  | some _ => fail .zeroDivision

/-- `CoverageReportBuilder.build` (`coverage_report_builder.py:24-38`) on a native database. -/
def buildReport (n : Nat) (group : String → Ref → L Int) (db : Ref) : L (Option Unit) := do
  let it ← scopes db ST.INSTANCE
  forScopes (fun i => do
    let _ ← buildInstance n group i
    pure ()) n it

theorem memSrc_fails (s : SrcInfo) : srcCtor (memSrc s) = .error .attributeError := by
  unfold srcCtor memSrc
  split
  · split at * <;> simp_all
  · rfl

theorem createScope_mem (dst : Ref) (n : Option String) (s : SrcInfo) (w so ty fl : Int) (o : Native) (t : List CCall) :
    createScope dst n (some (memSrc s)) w so ty fl o t = (.error .attributeError, t) := by
  simp only [createScope, srcPtr, bind_def, lift, memSrc_fails]

theorem noName_run {f : String → Ref → L Unit} (n : Nat) (it : Ref) (o : Native) (t : List CCall) :
    (∃ t', forScopes (fun r => do
      let name ← getScopeName r
      f name r) (n + 1) it o t = (.ok (some ()), t')) ∨
    ∃ e t', forScopes (fun r => do
      let name ← getScopeName r
      f name r) (n + 1) it o t = (.error e, t') := by
  simp only [forScopes, bind_def]
  cases hn : scopeNext it o t with
  | mk y t2 =>
    cases y with
    | error e => exact .inr ⟨e, t2, rfl⟩
    | ok y =>
      cases y with
      | none => exact .inl ⟨t2, rfl⟩
      | some r => exact .inr ⟨.notImplemented, t2, rfl⟩

/-- **C96** (partial) Merging databases without instances into a native database does nothing, merging native databases without instances
finds nothing, and the report of a native database without instances is empty.  Full statement: in-memory databases can be merged into a
native one as into an in-memory one, native databases can be merged and reported; see `C96_native_refuted`. -/
theorem C96_native_partial (o : Native) (t : List CCall) :
    (∀ dst rest srcs, (∀ s ∈ srcs, s.scopes ST.INSTANCE = []) → mergeInto dst rest srcs o t = (.ok (), t)) ∧
    (∀ n enter db t', listScopes (n + 1) db ST.INSTANCE o t = (.ok (some []), t') → mergeFrom (n + 1) enter [db] o t = (.ok (some ()), t')) ∧
    ∀ n group db t', listScopes (n + 1) db ST.INSTANCE o t = (.ok (some []), t') → buildReport (n + 1) group db o t = (.ok (some ()), t') := by
  have key : ∀ n db t', listScopes (n + 1) db ST.INSTANCE o t = (.ok (some []), t') → ∀ body,
      ((do let it ← scopes db ST.INSTANCE; forScopes body (n + 1) it) o t) = (.ok (some ()), t') := by
    intro n db t' h body
    simp only [listScopes, bind_def] at h ⊢
    cases hs : scopes db ST.INSTANCE o t with
    | mk x t1 =>
      rw [hs] at h
      cases x with
      | error e => simp at h
      | ok it =>
        simp only [collect, forScopes, bind_def] at h ⊢
        cases hn : scopeNext it o t1 with
        | mk y t2 =>
          rw [hn] at h
          cases y with
          | error e => simp at h
          | ok y =>
            cases y with
            | none => simpa [pure_def] using h
            | some r =>
              simp only [bind_def] at h
              cases hc : collect n it o t2 with
              | mk z t3 =>
                rw [hc] at h
                cases z with
                | error e => simp at h
                | ok z => cases z <;> simp [pure_def] at h
  refine ⟨?_, ?_, ?_⟩
  · intro dst rest srcs h
    have : Merge.collect ST.INSTANCE srcs = [] := by
      rw [Merge.collect_closed, List.map_eq_nil_iff, List.eq_nil_iff_forall_not_mem]
      intro k hk
      rw [Merge.childNames, mem_firstSeen, List.mem_flatMap] at hk
      obtain ⟨s, hs, hk⟩ := hk
      simp [h s hs] at hk
    simp [mergeInto, this, mergeInstances, pure_def]
  · intro n enter db t' h
    have := key n db t' h (fun r => do
      let name ← getScopeName r
      enter name r)
    simp only [mergeFrom, bind_def] at this ⊢
    cases hs : scopes db ST.INSTANCE o t with
    | mk x t1 =>
      rw [hs] at this
      cases x with
      | error e => simp at this
      | ok it => simp only at this ⊢; rw [this]; rfl
  · intro n group db t' h
    exact key n db t' h _

/-- **C96** fails whenever there is an instance.  Merging in-memory databases into a native one: if there is an instance, the merge raises before it has created
anything.  Merging native databases: the name of the first instance cannot be read; its goal has been set to 100.  Reporting on a native database: raises
as soon as there is an instance. -/
theorem C96_native_refuted (o : Native) (t : List CCall) :
    (∀ dst rest srcs, (∃ s ∈ srcs, s.scopes ST.INSTANCE ≠ []) → mergeInto dst rest srcs o t = (.error .attributeError, t)) ∧
    (∀ n enter db dbs h, (o (t ++ [.scopeIterate db.db db.obj 0x10]) (.scopeScan db.db (o t (.scopeIterate db.db db.obj 0x10)).ptr)).ptr = some h →
      ∃ t', mergeFrom (n + 1) enter (db :: dbs) o t = (.error .notImplemented, t') ∧ .setInt db.db h (-1) 4 100 ∈ t'.drop t.length) ∧
    ∀ n group db h, (o (t ++ [.scopeIterate db.db db.obj 0x10]) (.scopeScan db.db (o t (.scopeIterate db.db db.obj 0x10)).ptr)).ptr = some h →
      ∃ e, (buildReport (n + 1) group db o t).1 = .error e := by
  have em : toUnsigned 32 (ST.INSTANCE : Nat) = 0x10 := by decide
  refine ⟨?_, ?_, ?_⟩
  · intro dst rest srcs h
    obtain ⟨s, hs, hne⟩ := h
    obtain ⟨c, hc⟩ := List.exists_mem_of_ne_nil _ hne
    have hk : c.name ∈ Merge.childNames ST.INSTANCE srcs := by
      rw [Merge.childNames, mem_firstSeen, List.mem_flatMap]
      exact ⟨s, hs, List.mem_map.2 ⟨c, hc, rfl⟩⟩
    rw [mergeInto, Merge.collect_closed]
    cases hl : Merge.childNames ST.INSTANCE srcs with
    | nil => rw [hl] at hk; cases hk
    | cons k ks =>
      have hp : Merge.named ST.INSTANCE srcs k ≠ [] := Merge.named_ne_nil (by rw [hl]; simp)
      rw [← Merge.present_slots] at hp
      simp only [List.map_cons, mergeInstances, bind_def]
      cases hq : Merge.present (srcs.map fun s => Merge.lastNamed k (s.scopes ST.INSTANCE)) with
      | nil => exact absurd hq hp
      | cons s0 l =>
        simp only [listGetE, lift, List.getElem?_cons_zero]
        cases s0.du with
        | none => rfl
        | some du => simp only [bind_def, createScope_mem]
  · intro n enter db dbs h hh
    refine ⟨t ++ [.scopeIterate db.db db.obj 0x10, .scopeScan db.db (o t (.scopeIterate db.db db.obj 0x10)).ptr, .setInt db.db h (-1) 4 100], ?_, by simp⟩
    simp only [mergeFrom, scopes, bind_def, call_def, pure_def, em, forScopes, scopeNext, hh, mkScope_run, getScopeName, fail]
    simp [scopeCalls, Ref.target]
  · intro n group db h hh
    simp only [buildReport, scopes, bind_def, call_def, pure_def, em, forScopes, scopeNext, hh, mkScope_run]
    generalize htr : t ++ _ ++ _ ++ _ = tr
    obtain ⟨e, tr', he⟩ : ∃ e tr', buildInstance (n + 1) group ⟨db.db, some h⟩ o tr = (.error e, tr') := by
      simp only [buildInstance, scopes, bind_def, call_def, pure_def]
      rcases noName_run (f := fun name r => do
        let _ ← group name r
        pure ()) n ⟨db.db, (o tr (.scopeIterate db.db (some h) (toUnsigned 32 (ST.COVERGROUP : Nat)))).ptr⟩ o
        (tr ++ [.scopeIterate db.db (some h) (toUnsigned 32 (ST.COVERGROUP : Nat))]) with ⟨t1, h1⟩ | ⟨e, t1, h1⟩
      · exact ⟨.zeroDivision, t1, by rw [h1]; rfl⟩
      · exact ⟨e, t1, by rw [h1]⟩
    rw [he]
    exact ⟨e, rfl⟩

example : ∃ s ∈ [{ emptyDb with children := [Verif.mkInstance "i" SrcInfo.none 1 none []] }], s.scopes ST.INSTANCE ≠ [] :=
  ⟨_, List.mem_singleton.2 rfl, by
    have : maskHit ST.INSTANCE ST.INSTANCE = true := by decide
    simp [Scope.scopes, Verif.mkInstance, this]⟩
example : ∀ s ∈ [emptyDb], s.scopes ST.INSTANCE = [] := by simp [emptyDb, Scope.scopes]
example : (Ex.native ([] ++ [.scopeIterate 1 none 0x10]) (.scopeScan 1 (Ex.native [] (.scopeIterate 1 none 0x10)).ptr)).ptr = some 3 := rfl
example : ∃ t', listScopes 3 ⟨1, none⟩ ST.INSTANCE Ex.refusing [] = (.ok (some []), t') := ⟨_, rfl⟩

end Lib
end Verif
