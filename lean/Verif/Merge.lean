import Verif.Db
/-!
# `merge/db_merger.py`

Function by function model of `DbMerger`.  The destination objects that Python creates first and
fills afterwards are returned as finished values; their children are listed in creation order.
-/

namespace Verif
namespace Merge

/-- One assignment `cg_name_m[name][i] = src_cg` with creation of the slot list on first sight
(`db_merger.py:88-92`, same code at `:123-126`, `:149-153`; the variant in `merge` at `:39-45`
stores the first scope before inserting the list, with the same effect).
`cg_name_l` is not modelled separately: a name is appended to it exactly when the key is inserted,
so it always equals the key list of the ordered dictionary. -/
def putSlot (n : Nat) (i : Nat) (m : Dict (List (Option Scope))) (c : Scope) :
    Dict (List (Option Scope)) :=
  let m := if m.contains c.name then m else m.set c.name (List.replicate n none)
  match m.get? c.name with
  | some l => m.set c.name (l.set i (some c))
  | none => m

/-- The grouping loop of `db_merger.py:84-92` / `:118-126` / `:145-153` / `:36-45`:
for each source scope (index `i`) and each child of the given type, enter the child in slot `i` of
its name.  A later same-named child of the same source replaces the earlier one. -/
def collect (mask : Nat) (srcs : List Scope) : Dict (List (Option Scope)) :=
  srcs.zipIdx.foldl
    (fun m si => (si.1.scopes mask).foldl (putSlot srcs.length si.2) m) []

/-- `list(filter(lambda e: e is not None, l))` (`db_merger.py:50`, `:95`, `:129`, `:156`). -/
def present (l : List (Option Scope)) : List Scope := l.filterMap id

/-- Accumulation of one cover item (`db_merger.py:176-182` and `:235-241`). Reading the threshold
of an item that was never given one raises `AttributeError`, but only when the name is new. -/
def binStep (m : Dict (Int × Int)) (it : Item) : Except Err (Dict (Int × Int)) := do
  let m ← if m.contains it.name then pure m else
    match it.atLeast with
    | some a => pure (m.set it.name (0, a))
    | none => throw Err.attributeError
  let e ← m.getE it.name
  pure (m.set it.name (e.1 + it.count, e.2))

/-- Bins of one kind (`db_merger.py:172-191`, `:231-250`). -/
def mergeBinsOfKind (srcs : List Scope) (kind : Nat) : Except Err (List Item) := do
  let m ← (srcs.flatMap (fun s => s.coverItems kind)).foldlM binStep []
  pure (m.map (fun e => mkBin e.1 kind e.2.2 e.2.1))

/-- `_merge_coverpoint_bins` (`db_merger.py:169-191`) and `_merge_cross` (`:228-250`), which are
the same code: the three kinds in this order. -/
def mergeBins (srcs : List Scope) : Except Err (List Item) := do
  let a ← mergeBinsOfKind srcs CT.CVGBIN
  let b ← mergeBinsOfKind srcs CT.IGNOREBIN
  let c ← mergeBinsOfKind srcs CT.ILLEGALBIN
  pure (a ++ b ++ c)

/-- Body of the second loop of `_merge_coverpoints` (`db_merger.py:155-165`). -/
def mergeCoverpoint (e : String × List (Option Scope)) : Except Err Scope := do
  let l := present e.2
  let c0 ← listGetE l 0
  let bins ← mergeBins l
  pure (mkCoverpoint c0.name c0.src c0.weight bins)

/-- `_merge_coverpoints` (`db_merger.py:140-167`).  The returned dictionary `dst_cp_m` is the list of
created coverpoints itself (keyed by their names). -/
def mergeCoverpoints (srcs : List Scope) : Except Err (List Scope) :=
  (collect ST.COVERPOINT srcs).mapM mergeCoverpoint

/-- Entering a cross in `cross_m` (`db_merger.py:199-204`): unlike the other groupings this appends. -/
def putCross (m : Dict (List Scope)) (c : Scope) : Dict (List Scope) :=
  let m := if m.contains c.name then m else m.set c.name []
  match m.get? c.name with
  | some l => m.set c.name (l ++ [c])
  | none => m

/-- First loop of `_merge_crosses` (`db_merger.py:198-204`). -/
def collectCross (srcs : List Scope) : Dict (List Scope) :=
  srcs.foldl (fun m s => (s.scopes ST.CROSS).foldl putCross m) []

/-- Resolution of a crossed coverpoint name against `dst_cp_m` (`db_merger.py:213-217`).
(When the name is missing Python intends to raise `Exception`; building the message calls
`src_cp.getName()`, which does not exist, so what is raised is an `AttributeError`.) -/
def resolveCp (dstCps : List String) (n : String) : Except Err String :=
  if n ∈ dstCps then .ok n else .error .attributeError

/-- Body of the second loop of `_merge_crosses` (`db_merger.py:206-226`). -/
def mergeCross (dstCps : List String) (e : String × List Scope) : Except Err Scope := do
  let c0 ← listGetE e.2 0
  match c0.cps with
  | none => throw Err.attributeError
  | some cpNames =>
    let cps ← cpNames.mapM (resolveCp dstCps)
    let bins ← mergeBins e.2
    pure (mkCross e.1 c0.src c0.weight cps bins)

/-- `_merge_crosses` (`db_merger.py:193-226`). -/
def mergeCrosses (dstCps : List String) (srcs : List Scope) : Except Err (List Scope) :=
  (collectCross srcs).mapM (mergeCross dstCps)

/-- Body of the second loop of `_merge_coverinsts` (`db_merger.py:128-138`): coverpoints and crosses
are merged, nested cover-instances are not. -/
def mergeCoverinst (e : String × List (Option Scope)) : Except Err Scope := do
  let l := present e.2
  let c0 ← listGetE l 0
  let cps ← mergeCoverpoints l
  let crs ← mergeCrosses (cps.map (·.name)) l
  pure (mkCoverInst e.1 c0.src c0.weight (cps ++ crs))

/-- `_merge_coverinsts` (`db_merger.py:113-138`). -/
def mergeCoverinsts (srcs : List Scope) : Except Err (List Scope) :=
  (collect ST.COVERINSTANCE srcs).mapM mergeCoverinst

/-- `_merge_covergroup` (`db_merger.py:105-111`): the children created below the destination. -/
def mergeCovergroupBody (srcs : List Scope) : Except Err (List Scope) := do
  let cps ← mergeCoverpoints srcs
  let crs ← mergeCrosses (cps.map (·.name)) srcs
  let cis ← mergeCoverinsts srcs
  pure (cps ++ crs ++ cis)

/-- Body of the second loop of `_merge_covergroups` (`db_merger.py:94-103`). -/
def mergeCovergroup (e : String × List (Option Scope)) : Except Err Scope := do
  let l := present e.2
  let c0 ← listGetE l 0
  let ch ← mergeCovergroupBody l
  pure (mkCovergroup c0.name c0.src c0.weight ch)

/-- `_merge_covergroups` (`db_merger.py:79-103`). -/
def mergeCovergroups (srcs : List Scope) : Except Err (List Scope) :=
  (collect ST.COVERGROUP srcs).mapM mergeCovergroup

/-- Body of the second loop of `merge` (`db_merger.py:47-77`): a design unit (always of type
`DU_MODULE`) and an instance of weight 1. -/
def mergeInstance (e : String × List (Option Scope)) : Except Err (List Scope) := do
  let l := present e.2
  let s0 ← listGetE l 0
  match s0.du with
  | none => throw Err.attributeError
  | some du =>
    let cgs ← mergeCovergroups l
    pure [mkDu du.name du.src du.weight,
          mkInstance s0.name s0.src 1 (some du) cgs]

/-- `DbMerger.merge(dst, srcs)` (`db_merger.py:24-77`) on database roots: the new scopes are
appended to the children of `dst`.  On an exception Python leaves `dst` half filled; here the
exception is returned instead, and `MergeLeft.lean` says what is left in `dst`.  `dst` is assumed to be none of the sources (the store-level model
lifts this). -/
def merge (dst : Scope) (srcs : List Scope) : Except Err Scope := do
  let l ← (collect ST.INSTANCE srcs).mapM mergeInstance
  pure { dst with children := dst.children ++ l.flatten }

end Merge
end Verif
