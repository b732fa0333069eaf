import Verif.YamlDoc
import Verif.XmlSpec
import Mathlib.Data.List.Forall2
/-!
# Specification vocabulary for YAML documents

What a document says, independent of validation and decoding; and what a database shows.
-/

namespace Verif
namespace Spec
open Yaml

/-! ## Documents as mappings -/

/-- The value is a mapping. -/
def IsMapping (j : Json) : Prop := ∃ m, j = .obj m

/-- An optional member: absent, or present with the given content. -/
def Opt {α : Type} (P : Option Json → α → Prop) (o : Option Json) : Option α → Prop
  | none => o = none
  | some a => P o a

def IsText (o : Option Json) (s : String) : Prop := o = some (.str s)
def IsInt (o : Option Json) (z : Int) : Prop := o = some (.int z)
/-- A list whose elements have the given content, in order. -/
def IsList {α : Type} (P : Json → α → Prop) (o : Option Json) (l : List α) : Prop :=
  ∃ js, o = some (.arr js) ∧ List.Forall₂ P js l

def SaysBin (j : Json) (b : YBin) : Prop := IsText (j.prop "name") b.name ∧ IsInt (j.prop "count") b.count

def SaysCp (j : Json) (c : YCp) : Prop :=
  IsText (j.prop "name") c.name ∧ Opt IsInt (j.prop "atleast") c.atleast ∧ IsList SaysBin (j.prop "bins") c.bins ∧
  Opt (IsList SaysBin) (j.prop "ignorebins") c.ignorebins ∧ Opt (IsList SaysBin) (j.prop "illegalbins") c.illegalbins

def SaysCross (j : Json) (c : YCross) : Prop :=
  IsText (j.prop "name") c.name ∧ Opt IsInt (j.prop "atleast") c.atleast ∧
  IsList (fun j s => j = .str s) (j.prop "coverpoints") c.coverpoints ∧ Opt (IsList SaysBin) (j.prop "bins") c.bins

def SaysInst (j : Json) (i : YInst) : Prop :=
  IsText (j.prop "name") i.name ∧ Opt (IsList SaysCp) (j.prop "coverpoints") i.coverpoints ∧
  Opt (IsList SaysCross) (j.prop "crosses") i.crosses

def SaysCg (j : Json) (g : YCg) : Prop :=
  IsText (j.prop "name") g.name ∧ Opt IsInt (j.prop "weight") g.weight ∧ Opt (IsList SaysInst) (j.prop "instances") g.instances

/-- The document has this content. -/
def Says (j : Json) (d : YDoc) : Prop :=
  IsMapping j ∧ Opt (fun o c => ∃ j', o = some j' ∧ IsMapping j' ∧ Opt (IsList SaysCg) (j'.prop "covergroups") c)
    (j.prop "coverage") d.coverage

/-! ## Content of a covergroup of a document -/

def YInst.cps (i : YInst) : List YCp := i.coverpoints.getD []
def YInst.crs (i : YInst) : List YCross := i.crosses.getD []

/-- Bins of a coverpoint with their kinds. -/
def kindBins (c : YCp) : List (Nat × YBin) :=
  c.bins.map (fun b => (CT.CVGBIN, b)) ++ (c.ignorebins.getD []).map (fun b => (CT.IGNOREBIN, b))
    ++ (c.illegalbins.getD []).map (fun b => (CT.ILLEGALBIN, b))

/-- Name, kind, count, threshold. -/
abbrev BinView := String × Nat × Int × Option Int
/-- Name, weight, crossed coverpoints (crosses only), bins. -/
abbrev LeafView := String × Int × Option (List String) × List BinView
/-- Name, weight, coverpoints, crosses. -/
abbrev CoverGroupView := String × Int × List LeafView × List LeafView

/-- What the document says about a coverpoint: the threshold is `atleast`, or 1 if it is not given. -/
def docCp (c : YCp) : LeafView :=
  (c.name, 1, none, (kindBins c).map (fun b => (b.2.name, b.1, b.2.count, some (c.atleast.getD 1))))

def docCross (c : YCross) : LeafView :=
  (c.name, 1, some c.coverpoints, (c.bins.getD []).map (fun b => (b.name, CT.CVGBIN, b.count, some (c.atleast.getD 1))))

/-- The covergroup instance, with the weight of its covergroup. -/
def docInst (weight : Int) (i : YInst) : CoverGroupView := (i.name, weight, (YInst.cps i).map docCp, (YInst.crs i).map docCross)

def docGroup (g : YCg) : String × Int × List CoverGroupView :=
  (g.name, g.weight.getD 1, (g.instances.getD []).map (docInst (g.weight.getD 1)))

/-- The covergroups of a document. -/
def docGroups (d : YDoc) : List YCg := (d.coverage.getD none).getD []

/-! ## Content of a database -/

def leafView (s : Scope) : LeafView := (s.name, s.weight, s.cps, s.items.map (fun i => (i.name, i.kind, i.count, i.atLeast)))

def groupView (c : Scope) : CoverGroupView :=
  (c.name, c.weight, (kids ST.COVERPOINT c).map leafView, (kids ST.CROSS c).map leafView)

def coverView (g : Scope) : String × Int × List CoverGroupView := (g.name, g.weight, (kids ST.COVERINSTANCE g).map groupView)

/-! ## Type-level sums -/

/-- Counts of the bins of kind `k` called `b` of the scopes of type `t` called `n` directly below `g`. -/
def typeCount (g : Scope) (t : Nat) (n : String) (k : Nat) (b : String) : Int :=
  ((((kids t g).filter (fun s => s.name = n)).flatMap (·.items)).filter (fun i => i.kind = k ∧ i.name = b) |>.map (·.count)).sum

/-- The same over all kinds. -/
def typeCountAny (g : Scope) (t : Nat) (n b : String) : Int :=
  ((((kids t g).filter (fun s => s.name = n)).flatMap (·.items)).filter (fun i => i.name = b) |>.map (·.count)).sum

/-- Coverpoints called `n` in the instances of a covergroup. -/
def occCps (g : YCg) (n : String) : List YCp := ((g.instances.getD []).flatMap YInst.cps).filter (fun c => c.name = n)

/-- Crosses called `n` in the instances of a covergroup. -/
def occCrosses (g : YCg) (n : String) : List YCross := ((g.instances.getD []).flatMap YInst.crs).filter (fun c => c.name = n)

/-- Sum over the instances of the counts of the bins of kind `k` called `b` of coverpoint `n`. -/
def docCount (g : YCg) (n : String) (k : Nat) (b : String) : Int :=
  (((occCps g n).flatMap kindBins).filter (fun x => x.1 = k ∧ x.2.name = b) |>.map (·.2.count)).sum

/-- The same over all kinds. -/
def docCountAny (g : YCg) (n b : String) : Int :=
  (((occCps g n).flatMap kindBins).filter (fun x => x.2.name = b) |>.map (·.2.count)).sum

/-- Sum over the instances of the counts of the bins called `b` of cross `n`. -/
def docCrossCount (g : YCg) (n b : String) : Int :=
  (((occCrosses g n).flatMap (fun c => c.bins.getD [])).filter (fun x => x.name = b) |>.map (·.count)).sum

/-! ## Loadable documents -/

/-- A covergroup of a document that the reader can load. -/
structure LoadableCg (g : YCg) (is : List YInst) : Prop where
  /-- it has a list of instances -/
  insts : g.instances = some is
  /-- every crossed name is a coverpoint of the same or an earlier instance -/
  known : ∀ pre i post, is = pre ++ i :: post → ∀ cr ∈ YInst.crs i, ∀ n ∈ cr.coverpoints,
    ∃ j ∈ pre ++ [i], n ∈ (YInst.cps j).map (·.name)
  /-- a cross that has bins in some instance has a bin list in the first instance it occurs in -/
  lists : ∀ c ∈ is.flatMap YInst.crs, c.bins.getD [] ≠ [] →
    ∀ f, (is.flatMap YInst.crs).find? (fun d => d.name = c.name) = some f → f.bins ≠ none

/-- A document that the reader can load. -/
def Loadable (d : YDoc) : Prop := d.coverage ≠ none ∧ ∀ g ∈ docGroups d, ∃ is, LoadableCg g is

end Spec
end Verif
