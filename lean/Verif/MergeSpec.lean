import Verif.Db
/-!
# Specification vocabulary for databases

Small definitions used to state properties of the merge.  They only refer to the database
structure (`Db.lean`), not to the model of the merge.
-/

namespace Verif
namespace Spec

/-- One step of an address: the type bits and the name of a child scope. -/
abbrev Step := Nat × String

/-- An address: the steps from the root down. -/
abbrev Addr := List Step

/-- All children matching a step, in order. -/
def childrenAt (st : Step) (s : Scope) : List Scope :=
  s.children.filter (fun c => maskHit c.stype st.1 && decide (c.name = st.2))

/-- All scopes that an address leads to. -/
def reach : Addr → Scope → List Scope
  | [], s => [s]
  | st :: p, s => (childrenAt st s).flatMap (reach p)

/-- The items of a scope list with a kind bit and a name. -/
def itemsOf (k : Nat) (b : String) (l : List Scope) : List Item :=
  l.flatMap (fun s => s.items.filter (fun i => maskHit i.kind k && decide (i.name = b)))

/-- The bins an address, a kind and a bin name lead to. -/
def binsAt (p : Addr) (k : Nat) (b : String) (db : Scope) : List Item := itemsOf k b (reach p db)

/-- Sum of the counts of a list of bins. -/
def sumCounts (l : List Item) : Int := (l.map (·.count)).sum

/-- The total count found at an address. -/
def total (p : Addr) (k : Nat) (b : String) (db : Scope) : Int := sumCounts (binsAt p k b db)

/-- Kinds of bins. -/
def IsKind (k : Nat) : Prop := k = CT.CVGBIN ∨ k = CT.IGNOREBIN ∨ k = CT.ILLEGALBIN

/-- Addresses of covergroups and cover-instances: instance, covergroup, optional cover-instance. -/
inductive GroupAddr : Addr → Prop
  | cg (i g : String) : GroupAddr [(ST.INSTANCE, i), (ST.COVERGROUP, g)]
  | ci (i g c : String) :
      GroupAddr [(ST.INSTANCE, i), (ST.COVERGROUP, g), (ST.COVERINSTANCE, c)]

/-- Addresses of coverpoints and crosses. -/
inductive LeafAddr : Addr → Prop
  | cp {p : Addr} (h : GroupAddr p) (n : String) : LeafAddr (p ++ [(ST.COVERPOINT, n)])
  | cross {p : Addr} (h : GroupAddr p) (n : String) : LeafAddr (p ++ [(ST.CROSS, n)])

/-- All supported addresses. -/
inductive AnyAddr : Addr → Prop
  | inst (i : String) : AnyAddr [(ST.INSTANCE, i)]
  | group {p : Addr} (h : GroupAddr p) : AnyAddr p
  | leaf {p : Addr} (h : LeafAddr p) : AnyAddr p

mutual
/-- A scope and everything below it. -/
def subtrees : Scope → List Scope
  | ⟨ty, n, src, w, du, cps, ch, it⟩ => ⟨ty, n, src, w, du, cps, ch, it⟩ :: subtreesL ch
termination_by structural s => s
def subtreesL : List Scope → List Scope
  | [] => []
  | s :: t => subtrees s ++ subtreesL t
termination_by structural l => l
end

/-- No scope of the database has two same-named children of the same type among instances,
covergroups, cover-instances and coverpoints (crosses and bins may repeat). -/
def UniqueNames (db : Scope) : Prop :=
  ∀ s ∈ subtrees db, ∀ m ∈ [ST.INSTANCE, ST.COVERGROUP, ST.COVERINSTANCE, ST.COVERPOINT],
    ((s.children.filter (fun c => maskHit c.stype m)).map (·.name)).Nodup

/-- The contribution of one step when siblings may share names: all crosses of the name, and for
the other types the last child of that name of each scope. -/
def pick (st : Step) (l : List Scope) : List Scope :=
  if st.1 = ST.CROSS then l.flatMap (childrenAt st)
  else l.filterMap (fun s => (childrenAt st s).getLast?)

/-- The scopes of the inputs that contribute to an address of the merged database, in argument
order.  Without same-named siblings these are simply all scopes at that address
(`contrib_of_unique`). -/
def contrib : Addr → List Scope → List Scope
  | [], l => l
  | st :: p, l => contrib p (pick st l)

end Spec
end Verif
