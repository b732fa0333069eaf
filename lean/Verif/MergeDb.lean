import Verif.Merge
import Verif.Hist
/-!
# Merging whole databases, and property C14
-/

namespace Verif
namespace Merge

/-- `DbMerger.merge(dst, srcs)` (`db_merger.py:24-77`) on databases with their side tables.  The code
calls `createScope` and `createInstance` on the destination and `createCovergroup`,
`createCoverpoint`, `createCross`, `createCoverInstance` and `createBin` below it, never
`createHistoryNode` or `createFileHandle` (source locations are shared, not copied), so the
side tables of the destination stay what they are. -/
def mergeDb (dst : Database) (srcs : List Database) : Except Err Database := do
  let r ← merge dst.root (srcs.map (·.root))
  pure { dst with root := r }

end Merge

open Merge

/-- The full statement of C14: every history node of every input is in the result. -/
def Spec.HistoryKept (srcs : List Database) (out : Database) : Prop := ∀ s ∈ srcs, ∀ h ∈ s.hist, h ∈ out.hist

/-- An input without instances and with one history node. -/
def exHistDb : Database :=
  ⟨emptyDb, [Hist.create 0 (some "test1") (some "file1.ucis") (some "TEST")], []⟩

/-- C14 fails: the merge succeeds and the test record of the input is gone. -/
theorem C14_history_refuted : ¬ ∀ (dst : Database) (srcs : List Database) (out : Database),
    mergeDb dst srcs = .ok out → Spec.HistoryKept srcs out := by
  intro h
  have h1 := h ⟨emptyDb, [], []⟩ [exHistDb] _ rfl exHistDb (by simp) _ (List.mem_singleton.2 rfl)
  exact absurd h1 (by simp)

/-- **C14, partial.** Missing: the merge does not copy history nodes.  What holds: the history of the
destination is unchanged, so the property holds exactly if all records are already there. -/
theorem C14_history_partial {dst out : Database} {srcs : List Database} (h : mergeDb dst srcs = .ok out) :
    out.hist = dst.hist ∧ out.files = dst.files ∧ (Spec.HistoryKept srcs out ↔ ∀ s ∈ srcs, ∀ x ∈ s.hist, x ∈ dst.hist) := by
  unfold mergeDb at h
  cases hm : merge dst.root (srcs.map (·.root)) with
  | error e => rw [hm] at h; cases h
  | ok r =>
    rw [hm] at h
    cases h
    exact ⟨rfl, rfl, Iff.rfl⟩

/-- The hypothesis of `C14_history_partial` is met. -/
example : ∃ out, mergeDb exHistDb [exHistDb] = .ok out ∧ Spec.HistoryKept [exHistDb] out :=
  ⟨_, rfl, by intro s hs h hh; rw [List.mem_singleton.1 hs] at hh; exact hh⟩

end Verif
