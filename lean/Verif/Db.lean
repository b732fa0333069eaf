import Verif.Py
/-!
# Value-level coverage database

The observable content of an in-memory database: a tree of scopes with cover items.
-/

namespace Verif

/-! ## Type and kind words -/

namespace ST
/-- `scope_type_t.py:25-104` (only the constants the modelled code uses). -/
def TOGGLE : Nat := 0x1
def INSTANCE : Nat := 0x10
def COVERGROUP : Nat := 0x1000
def COVERINSTANCE : Nat := 0x2000
def COVERPOINT : Nat := 0x4000
def CROSS : Nat := 0x8000
def DU_MODULE : Nat := 0x1000000
def DU_ARCH : Nat := 0x2000000
def DU_PACKAGE : Nat := 0x4000000
def DU_PROGRAM : Nat := 0x8000000
def DU_INTERFACE : Nat := 0x10000000
def RESERVED : Nat := 0xFF00000000000000
def ALL : Nat := 0x0000FFFFFFFFFFFF
/-- `ScopeTypeT.DU_ANY(t)`, `scope_type_t.py:97-104`. -/
def duAny (t : Nat) : Bool :=
  maskHit t (DU_MODULE ||| DU_ARCH ||| DU_PACKAGE ||| DU_PROGRAM ||| DU_INTERFACE)
end ST

namespace CT
/-- `cover_type_t.py` bin kinds. -/
def CVGBIN : Nat := 0x1
def IGNOREBIN : Nat := 0x80000
def ILLEGALBIN : Nat := 0x100000
end CT

/-- `source_info.py:26-31`; the file handle is represented by its name (handles are interned by
name, `mem_ucis.py:85-88`). `SourceInfo(None, -1, -1)` is the default. -/
structure SrcInfo where
  file : Option String
  line : Int
  token : Int
  deriving Repr, DecidableEq, BEq

/-- `SourceInfo(None, -1, -1)`, substituted for `None` in `mem_scope.py:57`. -/
def SrcInfo.none : SrcInfo := ⟨Option.none, -1, -1⟩

/-- A cover item: `MemCoverIndex` (`mem_cover_index.py:15-19`) together with its `CoverData`
(`cover_data.py:10-20`). `atLeast` is `none` when the attribute was never assigned: the
constructor of `CoverData` does not define it, only `createBin` does (`coverpoint.py:56`).
The source location, `flags`, `limit`, `bitlen` of an item are read by no modelled algorithm and
are left out. -/
structure Item where
  name : String
  kind : Nat
  count : Int
  atLeast : Option Int
  goal : Int
  weight : Int
  deriving Repr, DecidableEq, BEq

/-- What is read of the design unit of an instance (`db_merger.py:56-60`). -/
structure DuInfo where
  name : String
  src : SrcInfo
  weight : Int
  deriving Repr, DecidableEq, BEq

/-- A scope as seen through the read API of `mem_scope.py`.

* `du`: the design unit returned by `getInstanceDu()`; `none` when the scope has none (or has no
  such method); either way the next use raises `AttributeError`.
* `cps`: names of the crossed coverpoints in order; `none` for scopes that are not crosses (they
  have no method `getNumCrossedCoverpoints`).
* properties that no algorithm reads (goal, flags, at_least option ...) are at store level only. -/
structure Scope where
  stype : Nat
  name : String
  src : SrcInfo
  weight : Int
  du : Option DuInfo
  cps : Option (List String)
  children : List Scope
  items : List Item
  deriving Repr, BEq

namespace Scope

/-- `list(s.scopes(mask))`: `mem_scope.py:200` with `mem_scope_iterator.py:19-35`.
The iterator itself is modelled in `Store.lean`, where this closed form is proved. -/
def scopes (s : Scope) (mask : Nat) : List Scope :=
  s.children.filter (fun c => maskHit c.stype mask)

/-- `list(s.coverItems(mask))`: `mem_scope.py:203` with `mem_cover_index_iterator.py:20-33`. -/
def coverItems (s : Scope) (mask : Nat) : List Item :=
  s.items.filter (fun i => maskHit i.kind mask)

end Scope

/-- `createBin` (`coverpoint.py:44-66`): count and threshold as given, goal 1, weight 1. -/
def mkBin (name : String) (kind : Nat) (atLeast count : Int) : Item :=
  { name, kind, count, atLeast := some atLeast, goal := 1, weight := 1 }

/-- `createCoverpoint` (`mem_covergroup.py:54-62`) with the bins created afterwards. -/
def mkCoverpoint (name : String) (src : SrcInfo) (weight : Int) (bins : List Item) : Scope :=
  { stype := ST.COVERPOINT, name, src, weight, du := none, cps := none, children := [], items := bins }

/-- `createCross` (`mem_covergroup.py:64-73`, `mem_cross.py:16-27`). -/
def mkCross (name : String) (src : SrcInfo) (weight : Int) (cps : List String)
    (bins : List Item) : Scope :=
  { stype := ST.CROSS, name, src, weight, du := none, cps := some cps, children := [], items := bins }

/-- `createCovergroup` (`mem_scope.py:123-136`) with its children in creation order. -/
def mkCovergroup (name : String) (src : SrcInfo) (weight : Int) (children : List Scope) : Scope :=
  { stype := ST.COVERGROUP, name, src, weight, du := none, cps := none, children, items := [] }

/-- `createCoverInstance` (`mem_covergroup.py:75-88`, `mem_scope.py:160-163`). -/
def mkCoverInst (name : String) (src : SrcInfo) (weight : Int) (children : List Scope) : Scope :=
  { stype := ST.COVERINSTANCE, name, src, weight, du := none, cps := none, children, items := [] }

/-- `createScope` with a design-unit type (`mem_scope.py:154-156`). -/
def mkDu (name : String) (src : SrcInfo) (weight : Int) (stype : Nat := ST.DU_MODULE) : Scope :=
  { stype, name, src, weight, du := none, cps := none, children := [], items := [] }

/-- `createInstance` (`mem_scope.py:177-189`). -/
def mkInstance (name : String) (src : SrcInfo) (weight : Int) (du : Option DuInfo)
    (children : List Scope) : Scope :=
  { stype := ST.INSTANCE, name, src, weight, du, cps := none, children, items := [] }

/-- An empty database root (`mem_ucis.py:49-68`), history nodes are kept separately. -/
def emptyDb : Scope :=
  { stype := ST.RESERVED, name := "", src := SrcInfo.none, weight := 1, du := none, cps := none,
    children := [], items := [] }

end Verif
