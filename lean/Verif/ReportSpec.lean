import Verif.Report
import Verif.MergeSpec
/-!
# Specification vocabulary for coverage reports

Definitions on databases and on finished reports, independent of the builder.
-/

namespace Verif
namespace Spec
open Report

/-- Children of a type. -/
def kids (mask : Nat) (s : Scope) : List Scope := s.children.filter (fun c => maskHit c.stype mask)

/-- Items of a kind. -/
def itemsOfKind (k : Nat) (s : Scope) : List Item := s.items.filter (fun i => maskHit i.kind k)

/-- An item has reached its threshold. -/
def reached (i : Item) : Prop := ∃ a, i.atLeast = some a ∧ a ≤ i.count

instance (i : Item) : Decidable (reached i) :=
  match h : i.atLeast with
  | some a => if ha : a ≤ i.count then isTrue ⟨a, h, ha⟩
    else isFalse (fun ⟨_, hb, hc⟩ => ha (by rw [h] at hb; injection hb with hb; exact hb ▸ hc))
  | none => isFalse (fun ⟨_, hb, _⟩ => by rw [h] at hb; cases hb)

/-- Number of ordinary bins. -/
def numBins (s : Scope) : Nat := (itemsOfKind CT.CVGBIN s).length

/-- Number of ordinary bins that have reached their threshold. -/
def numReached (s : Scope) : Nat := (itemsOfKind CT.CVGBIN s).countP (fun i => decide (reached i))

/-- Percentage of ordinary bins that have reached their threshold; 0 without bins. -/
def hitShare (s : Scope) : Rat := if numBins s = 0 then 0 else 100 * (numReached s : Rat) / (numBins s : Rat)

/-- The covergroups of all instances. -/
def allCovergroups (db : Scope) : List Scope := (kids ST.INSTANCE db).flatMap (kids ST.COVERGROUP)

/-- The covergroup or cover-instance at a position: an index into the list of covergroups, then
indices into the cover-instances of each further level. -/
def groupAt : List Nat → List Scope → Option Scope
  | [], _ => none
  | [i], l => l[i]?
  | i :: j :: p, l => (l[i]?).bind (fun s => groupAt (j :: p) (kids ST.COVERINSTANCE s))

/-- The reported covergroup or cover-instance at a position. -/
def nodeAt : List Nat → List RCg → Option RCg
  | [], _ => none
  | [i], l => l[i]?
  | i :: j :: p, l => (l[i]?).bind (fun r => nodeAt (j :: p) r.covergroups)

/-- The covergroup or cover-instance at a position of the database is reported as the node. -/
def At (db : Scope) (r : Rpt) (p : List Nat) (s : Scope) (n : RCg) : Prop :=
  groupAt p (allCovergroups db) = some s ∧ nodeAt p r.covergroups = some n

mutual
/-- A group and the cover-instances below it. -/
def groupTree : Scope → List Scope
  | ⟨ty, n, src, w, du, cps, ch, it⟩ => ⟨ty, n, src, w, du, cps, ch, it⟩ :: groupForest ch
termination_by structural s => s
/-- The trees of the cover-instances in a list. -/
def groupForest : List Scope → List Scope
  | [] => []
  | c :: t => if maskHit c.stype ST.COVERINSTANCE then groupTree c ++ groupForest t else groupForest t
termination_by structural l => l
end

/-- All covergroups and cover-instances that a report shows. -/
def reportedGroups (db : Scope) : List Scope := (allCovergroups db).flatMap groupTree

/-- Every bin that a report reads has a threshold: all bins of coverpoints, the ordinary bins of
crosses. -/
def ThresholdsSet (db : Scope) : Prop :=
  ∀ g ∈ reportedGroups db,
    (∀ c ∈ kids ST.COVERPOINT g, ∀ k ∈ [CT.CVGBIN, CT.IGNOREBIN, CT.ILLEGALBIN],
      ∀ i ∈ itemsOfKind k c, i.atLeast ≠ none) ∧
    (∀ c ∈ kids ST.CROSS g, ∀ i ∈ itemsOfKind CT.CVGBIN c, i.atLeast ≠ none)

/-- Sum of weights. -/
def weightSum (l : List Scope) : Int := (l.map (·.weight)).sum

/-- No covergroup, cover-instance or coverpoint weight is negative. -/
def NonNegWeights (db : Scope) : Prop :=
  (∀ g ∈ allCovergroups db, 0 ≤ g.weight) ∧
  (∀ g ∈ reportedGroups db, ∀ c ∈ kids ST.COVERPOINT g, 0 ≤ c.weight)

end Spec
end Verif
