import Verif.Store
/-!
# `merge/db_merger.py` on objects

The functions of `DbMerger` once more, now as calls on the objects of `Store.lean`: the sources are read
through references, the destination grows call by call, and an exception leaves behind whatever was
created before it.  `StoreMergeThms.lean` relates this to the functions of `Merge.lean`.
-/

namespace Verif
namespace Store

/-! ## Reading -/

/-- `getScopeName` (`mem_scope.py:86-87`). -/
def getScopeName (o : Nat) : M String := do
  let x ← obj o
  pure x.name

/-- `getSourceInfo` (`mem_scope.py:89-90`). -/
def getSourceInfo (o : Nat) : M SrcInfo := do
  let x ← obj o
  pure x.src

/-- `getWeight` (`mem_scope.py:71-72`). -/
def getWeight (o : Nat) : M Int := do
  let x ← obj o
  pure x.weight

/-- `getInstanceDu` (`mem_instance_scope.py:42-43`); other classes have no such method.  `None` is returned
as an error here because every use of the result is a method call, which raises `AttributeError` on `None`. -/
def getInstanceDu (o : Nat) : M Nat := do
  let x ← obj o
  match x.cls, x.du with
  | .inst, some d | .toggle, some d => pure d
  | _, _ => fail .attributeError

/-- `getNumCrossedCoverpoints` (`mem_cross.py:29-30`); other classes have no such method. -/
def getNumCrossedCoverpoints (o : Nat) : M Nat := do
  let x ← obj o
  match x.cls with
  | .cross => pure x.cps.length
  | _ => fail .attributeError

/-- `getIthCrossedCoverpoint` (`mem_cross.py:32-33`), for indices that are not negative. -/
def getIthCrossedCoverpoint (o i : Nat) : M Nat := do
  let x ← obj o
  match x.cls with
  | .cross => read (fun _ => listGetE x.cps i)
  | _ => fail .attributeError

namespace DbMerger

/-- Flags of a merged design unit (`db_merger.py:63-66`, `flags_t.py:30-42`). -/
def duFlags : Int := 0x17F

/-- `UCIS_INST_ONCE` (`db_merger.py:75`). -/
def instFlags : Int := 0x1

/-- One assignment of the grouping loops (`db_merger.py:39-45`, `:88-92`, `:123-126`, `:149-153`), as in
`Merge.putSlot`. -/
def putSlot (n i : Nat) (m : Dict (List (Option Nat))) (name : String) (c : Nat) : Dict (List (Option Nat)) :=
  let m := if m.contains name then m else m.set name (List.replicate n none)
  match m.get? name with
  | some l => m.set name (l.set i (some c))
  | none => m

/-- The body of the inner grouping loop. -/
def slotStep (n i : Nat) (m : Dict (List (Option Nat))) (c : Nat) : M (Dict (List (Option Nat))) := do
  let name ← getScopeName c
  pure (putSlot n i m name c)

/-- The grouping loops (`db_merger.py:36-45`, `:84-92`, `:118-126`, `:145-153`).  The iterator is exhausted
first; the body of the loop changes nothing. -/
def collect (mask : Nat) (srcs : List Nat) : M (Dict (List (Option Nat))) :=
  srcs.zipIdx.foldlM (fun m si => do
    let l ← scopes si.1 mask
    l.foldlM (slotStep srcs.length si.2) m) []

/-- One cover item of a source (`db_merger.py:176-182`, `:235-241`). -/
def binStep (m : Dict (Int × Int)) (b : Nat) : M (Dict (Int × Int)) := do
  let x ← bin b
  let d ← cdata x.data
  let m ← if m.contains x.name then pure m else
    match d.atLeast with
    | some a => pure (m.set x.name (0, a))
    | none => fail .attributeError
  let e ← read (fun _ => m.getE x.name)
  pure (m.set x.name (e.1 + d.count, e.2))

/-- The counting loop (`db_merger.py:175-182`, `:234-241`). -/
def sumBins (srcs : List Nat) (kind : Nat) : M (Dict (Int × Int)) :=
  srcs.foldlM (fun m c => do
    let l ← coverItems c kind
    l.foldlM binStep m) []

/-- The creating loop (`db_merger.py:184-191`, `:243-250`). -/
def makeBins (dst kind : Nat) : Dict (Int × Int) → M Unit
  | [] => pure ()
  | e :: t => do
    let _ ← createBin dst e.1 none e.2.2 e.2.1 kind
    makeBins dst kind t

/-- Bins of one kind (`db_merger.py:171-191`, `:230-250`). -/
def mergeBinsOfKind (dst : Nat) (srcs : List Nat) (kind : Nat) : M Unit := do
  let m ← sumBins srcs kind
  makeBins dst kind m

/-- `_merge_coverpoint_bins` (`db_merger.py:169-191`) and `_merge_cross` (`:228-250`). -/
def mergeBins (dst : Nat) (srcs : List Nat) : M Unit := do
  mergeBinsOfKind dst srcs CT.CVGBIN
  mergeBinsOfKind dst srcs CT.IGNOREBIN
  mergeBinsOfKind dst srcs CT.ILLEGALBIN

/-- `list(filter(lambda e: e is not None, l))`. -/
def present (l : List (Option Nat)) : List Nat := l.filterMap id

/-- Body of the second loop of `_merge_coverpoints` (`db_merger.py:155-165`); `cps` is `dst_cp_m`. -/
def mergeCoverpoint (dst : Nat) (cps : Dict Nat) (e : String × List (Option Nat)) : M (Dict Nat) := do
  let l := present e.2
  let c0 ← read (fun _ => listGetE l 0)
  let n ← getScopeName c0
  let src ← getSourceInfo c0
  let w ← getWeight c0
  let cp ← createCoverpoint dst n (some src) w srcOTHER
  mergeBins cp l
  pure (cps.set e.1 cp)

/-- `_merge_coverpoints` (`db_merger.py:140-167`). -/
def mergeCoverpoints (dst : Nat) (srcs : List Nat) : M (Dict Nat) := do
  let m ← collect ST.COVERPOINT srcs
  m.foldlM (mergeCoverpoint dst) []

/-- Entering a cross in `cross_m` (`db_merger.py:201-204`). -/
def putCross (m : Dict (List Nat)) (name : String) (c : Nat) : Dict (List Nat) :=
  let m := if m.contains name then m else m.set name []
  match m.get? name with
  | some l => m.set name (l ++ [c])
  | none => m

/-- Body of the inner loop of `_merge_crosses` (`db_merger.py:199-204`). -/
def crossStep (m : Dict (List Nat)) (c : Nat) : M (Dict (List Nat)) := do
  let name ← getScopeName c
  pure (putCross m name c)

/-- First loop of `_merge_crosses` (`db_merger.py:198-204`). -/
def collectCross (srcs : List Nat) : M (Dict (List Nat)) :=
  srcs.foldlM (fun m c => do
    let l ← scopes c ST.CROSS
    l.foldlM crossStep m) []

/-- One crossed coverpoint (`db_merger.py:212-217`): looked up by name among the merged coverpoints.  The
message of the exception calls `src_cp.getName()`, which raises `AttributeError` itself. -/
def resolveCp (cps : Dict Nat) (c0 : Nat) (acc : List Nat) (i : Nat) : M (List Nat) := do
  let p ← getIthCrossedCoverpoint c0 i
  let n ← getScopeName p
  match cps.get? n with
  | some q => pure (acc ++ [q])
  | none => fail .attributeError

/-- Body of the second loop of `_merge_crosses` (`db_merger.py:206-226`). -/
def mergeCross (dst : Nat) (cps : Dict Nat) (e : String × List Nat) : M Unit := do
  let c0 ← read (fun _ => listGetE e.2 0)
  let n ← getNumCrossedCoverpoints c0
  let l ← (List.range n).foldlM (resolveCp cps c0) []
  let src ← getSourceInfo c0
  let w ← getWeight c0
  let cr ← createCross dst e.1 (some src) w srcOTHER l
  mergeBins cr e.2

/-- Second loop of `_merge_crosses` (`db_merger.py:206-226`). -/
def makeCrosses (dst : Nat) (cps : Dict Nat) : Dict (List Nat) → M Unit
  | [] => pure ()
  | e :: t => do
    mergeCross dst cps e
    makeCrosses dst cps t

/-- `_merge_crosses` (`db_merger.py:193-226`). -/
def mergeCrosses (dst : Nat) (cps : Dict Nat) (srcs : List Nat) : M Unit := do
  let m ← collectCross srcs
  makeCrosses dst cps m

/-- Body of the second loop of `_merge_coverinsts` (`db_merger.py:128-138`). -/
def mergeCoverinst (dst : Nat) (e : String × List (Option Nat)) : M Unit := do
  let l := present e.2
  let c0 ← read (fun _ => listGetE l 0)
  let src ← getSourceInfo c0
  let w ← getWeight c0
  let ci ← createCoverInstance dst e.1 (some src) w srcOTHER
  let cps ← mergeCoverpoints ci l
  mergeCrosses ci cps l

/-- A loop over the entries of a dictionary. -/
def forEach (f : String × List (Option Nat) → M Unit) : Dict (List (Option Nat)) → M Unit
  | [] => pure ()
  | e :: t => do
    f e
    forEach f t

/-- `_merge_coverinsts` (`db_merger.py:113-138`). -/
def mergeCoverinsts (dst : Nat) (srcs : List Nat) : M Unit := do
  let m ← collect ST.COVERINSTANCE srcs
  forEach (mergeCoverinst dst) m

/-- `_merge_covergroup` (`db_merger.py:105-111`). -/
def mergeCovergroupBody (dst : Nat) (srcs : List Nat) : M Unit := do
  let cps ← mergeCoverpoints dst srcs
  mergeCrosses dst cps srcs
  mergeCoverinsts dst srcs

/-- Body of the second loop of `_merge_covergroups` (`db_merger.py:94-103`). -/
def mergeCovergroup (dst : Nat) (e : String × List (Option Nat)) : M Unit := do
  let l := present e.2
  let c0 ← read (fun _ => listGetE l 0)
  let n ← getScopeName c0
  let src ← getSourceInfo c0
  let w ← getWeight c0
  let cg ← createCovergroup dst n (some src) w srcOTHER
  mergeCovergroupBody cg l

/-- `_merge_covergroups` (`db_merger.py:79-103`). -/
def mergeCovergroups (dst : Nat) (srcs : List Nat) : M Unit := do
  let m ← collect ST.COVERGROUP srcs
  forEach (mergeCovergroup dst) m

/-- Body of the second loop of `merge` (`db_merger.py:47-77`). -/
def mergeInstance (dst : Nat) (e : String × List (Option Nat)) : M Unit := do
  let l := present e.2
  let s0 ← read (fun _ => listGetE l 0)
  let du ← getInstanceDu s0
  let dn ← getScopeName du
  let dsrc ← getSourceInfo du
  let dw ← getWeight du
  let ddu ← createScope dst dn (some dsrc) dw srcOTHER ST.DU_MODULE duFlags
  let n ← getScopeName s0
  let src ← getSourceInfo s0
  let di ← createInstance dst n (some src) 1 srcOTHER ST.INSTANCE (some ddu) instFlags
  mergeCovergroups di l

/-- `DbMerger.merge(dst, srcs)` (`db_merger.py:24-77`). -/
def merge (dst : Nat) (srcs : List Nat) : M Unit := do
  let m ← collect ST.INSTANCE srcs
  forEach (mergeInstance dst) m

end DbMerger
end Store
end Verif
